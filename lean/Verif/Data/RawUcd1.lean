set_option maxRecDepth 10000
/-! GENERATED by tools/gen_raw.py: the octets of src/u5e/props/UnicodeData.txt, one number per line (little-endian). -/
namespace U5e.Data

/-- src/u5e/props/UnicodeData.txt lines 3841-4096. -/
def rawUcd15 : List Nat := [
0x3b3b3b3b3b4e3b3b3b3b3b4c3b303b6f4c3b4f45592d555920474e4f4553474e554a204c55474e41483b31393131,
0x3b3b3b3b3b4e3b3b3b3b3b4c3b303b6f4c3b45592d555920474e4f4553474e554a204c55474e41483b32393131,
0x3b3b3b3b3b4e3b3b3b3b3b4c3b303b6f4c3b552d555920474e4f4553474e554a204c55474e41483b33393131,
0x3b3b3b3b3b4e3b3b3b3b3b4c3b303b6f4c3b492d555920474e4f4553474e554a204c55474e41483b34393131,
0x3b3b3b3b3b4e3b3b3b3b3b4c3b303b6f4c3b552d554520474e4f4553474e554a204c55474e41483b35393131,
0x3b3b3b3b3b4e3b3b3b3b3b4c3b303b6f4c3b55452d554520474e4f4553474e554a204c55474e41483b36393131,
0x3b3b3b3b3b4e3b3b3b3b3b4c3b303b6f4c3b552d495920474e4f4553474e554a204c55474e41483b37393131,
0x3b3b3b3b3b4e3b3b3b3b3b4c3b303b6f4c3b412d4920474e4f4553474e554a204c55474e41483b38393131,
0x3b3b3b3b3b4e3b3b3b3b3b4c3b303b6f4c3b41592d4920474e4f4553474e554a204c55474e41483b39393131,
0x3b3b3b3b3b4e3b3b3b3b3b4c3b303b6f4c3b4f2d4920474e4f4553474e554a204c55474e41483b41393131,
0x3b3b3b3b3b4e3b3b3b3b3b4c3b303b6f4c3b552d4920474e4f4553474e554a204c55474e41483b42393131,
0x3b3b3b3b3b4e3b3b3b3b3b4c3b303b6f4c3b55452d4920474e4f4553474e554a204c55474e41483b43393131,
0x3b3b3b3b3b4e3b3b3b3b3b4c3b303b6f4c3b41454152412d4920474e4f4553474e554a204c55474e41483b44393131,
0x3b3b3b3b3b4e3b3b3b3b3b4c3b303b6f4c3b414541524120474e4f4553474e554a204c55474e41483b45393131,
0x3b3b3b3b3b4e3b3b3b3b3b4c3b303b6f4c3b4f452d414541524120474e4f4553474e554a204c55474e41483b46393131,
0x3b3b3b3b3b4e3b3b3b3b3b4c3b303b6f4c3b552d414541524120474e4f4553474e554a204c55474e41483b30413131,
0x3b3b3b3b3b4e3b3b3b3b3b4c3b303b6f4c3b492d414541524120474e4f4553474e554a204c55474e41483b31413131,
0x3b3b3b3b3b4e3b3b3b3b3b4c3b303b6f4c3b4145415241474e41535320474e4f4553474e554a204c55474e41483b32413131,
0x3b3b3b3b3b4e3b3b3b3b3b4c3b303b6f4c3b55452d4120474e4f4553474e554a204c55474e41483b33413131,
0x3b3b3b3b3b4e3b3b3b3b3b4c3b303b6f4c3b552d415920474e4f4553474e554a204c55474e41483b34413131,
0x3b3b3b3b3b4e3b3b3b3b3b4c3b303b6f4c3b41592d4f455920474e4f4553474e554a204c55474e41483b35413131,
0x3b3b3b3b3b4e3b3b3b3b3b4c3b303b6f4c3b41592d4f20474e4f4553474e554a204c55474e41483b36413131,
0x3b3b3b3b3b4e3b3b3b3b3b4c3b303b6f4c3b4541592d4f20474e4f4553474e554a204c55474e41483b37413131,
0x3b3b3b3b3b4e3b3b3b3b3b4c3b303b6f4c3b4b4f4559494b20474e4f4553474e4f4a204c55474e41483b38413131,
0x3b3b3b3b3b4e3b3b3b3b3b4c3b303b6f4c3b4b4f4559494b474e41535320474e4f4553474e4f4a204c55474e41483b39413131,
0x3b3b3b3b3b4e3b3b3b3b3b4c3b303b6f4c3b534f49532d4b4f4559494b20474e4f4553474e4f4a204c55474e41483b41413131,
0x3b3b3b3b3b4e3b3b3b3b3b4c3b303b6f4c3b4e5545494e20474e4f4553474e4f4a204c55474e41483b42413131,
0x3b3b3b3b3b4e3b3b3b3b3b4c3b303b6f4c3b43554549432d4e5545494e20474e4f4553474e4f4a204c55474e41483b43413131,
0x3b3b3b3b3b4e3b3b3b3b3b4c3b303b6f4c3b48554549482d4e5545494e20474e4f4553474e4f4a204c55474e41483b44413131,
0x3b3b3b3b3b4e3b3b3b3b3b4c3b303b6f4c3b5455454b495420474e4f4553474e4f4a204c55474e41483b45413131,
0x3b3b3b3b3b4e3b3b3b3b3b4c3b303b6f4c3b4c5545495220474e4f4553474e4f4a204c55474e41483b46413131,
0x3b3b3b3b3b4e3b3b3b3b3b4c3b303b6f4c3b4b4f4559494b2d4c5545495220474e4f4553474e4f4a204c55474e41483b30423131,
0x3b3b3b3b3b4e3b3b3b3b3b4c3b303b6f4c3b4d5545494d2d4c5545495220474e4f4553474e4f4a204c55474e41483b31423131,
0x3b3b3b3b3b4e3b3b3b3b3b4c3b303b6f4c3b50554549502d4c5545495220474e4f4553474e4f4a204c55474e41483b32423131,
0x3b3b3b3b3b4e3b3b3b3b3b4c3b303b6f4c3b534f49532d4c5545495220474e4f4553474e4f4a204c55474e41483b33423131,
0x3b3b3b3b3b4e3b3b3b3b3b4c3b303b6f4c3b485455454948542d4c5545495220474e4f4553474e4f4a204c55474e41483b34423131,
0x3b3b3b3b3b4e3b3b3b3b3b4c3b303b6f4c3b485055454948502d4c5545495220474e4f4553474e4f4a204c55474e41483b35423131,
0x3b3b3b3b3b4e3b3b3b3b3b4c3b303b6f4c3b48554549482d4c5545495220474e4f4553474e4f4a204c55474e41483b36423131,
0x3b3b3b3b3b4e3b3b3b3b3b4c3b303b6f4c3b4d5545494d20474e4f4553474e4f4a204c55474e41483b37423131,
0x3b3b3b3b3b4e3b3b3b3b3b4c3b303b6f4c3b505545495020474e4f4553474e4f4a204c55474e41483b38423131,
0x3b3b3b3b3b4e3b3b3b3b3b4c3b303b6f4c3b534f49532d505545495020474e4f4553474e4f4a204c55474e41483b39423131,
0x3b3b3b3b3b4e3b3b3b3b3b4c3b303b6f4c3b534f495320474e4f4553474e4f4a204c55474e41483b41423131,
0x3b3b3b3b3b4e3b3b3b3b3b4c3b303b6f4c3b534f4953474e41535320474e4f4553474e4f4a204c55474e41483b42423131,
0x3b3b3b3b3b4e3b3b3b3b3b4c3b303b6f4c3b474e55454920474e4f4553474e4f4a204c55474e41483b43423131,
0x3b3b3b3b3b4e3b3b3b3b3b4c3b303b6f4c3b435545494320474e4f4553474e4f4a204c55474e41483b44423131,
0x3b3b3b3b3b4e3b3b3b3b3b4c3b303b6f4c3b4843554549484320474e4f4553474e4f4a204c55474e41483b45423131,
0x3b3b3b3b3b4e3b3b3b3b3b4c3b303b6f4c3b484b554549484b20474e4f4553474e4f4a204c55474e41483b46423131,
0x3b3b3b3b3b4e3b3b3b3b3b4c3b303b6f4c3b4854554549485420474e4f4553474e4f4a204c55474e41483b30433131,
0x3b3b3b3b3b4e3b3b3b3b3b4c3b303b6f4c3b4850554549485020474e4f4553474e4f4a204c55474e41483b31433131,
0x3b3b3b3b3b4e3b3b3b3b3b4c3b303b6f4c3b485545494820474e4f4553474e4f4a204c55474e41483b32433131,
0x3b3b3b3b3b4e3b3b3b3b3b4c3b303b6f4c3b4c554549522d4b4f4559494b20474e4f4553474e4f4a204c55474e41483b33433131,
0x3b3b3b3b3b4e3b3b3b3b3b4c3b303b6f4c3b4b4f4559494b2d534f49532d4b4f4559494b20474e4f4553474e4f4a204c55474e41483b34433131,
0x3b3b3b3b3b4e3b3b3b3b3b4c3b303b6f4c3b4b4f4559494b2d4e5545494e20474e4f4553474e4f4a204c55474e41483b35433131,
0x3b3b3b3b3b4e3b3b3b3b3b4c3b303b6f4c3b5455454b49542d4e5545494e20474e4f4553474e4f4a204c55474e41483b36433131,
0x3b3b3b3b3b4e3b3b3b3b3b4c3b303b6f4c3b534f49532d4e5545494e20474e4f4553474e4f4a204c55474e41483b37433131,
0x3b3b3b3b3b4e3b3b3b3b3b4c3b303b6f4c3b534f49534e41502d4e5545494e20474e4f4553474e4f4a204c55474e41483b38433131,
0x3b3b3b3b3b4e3b3b3b3b3b4c3b303b6f4c3b485455454948542d4e5545494e20474e4f4553474e4f4a204c55474e41483b39433131,
0x3b3b3b3b3b4e3b3b3b3b3b4c3b303b6f4c3b4b4f4559494b2d5455454b495420474e4f4553474e4f4a204c55474e41483b41433131,
0x3b3b3b3b3b4e3b3b3b3b3b4c3b303b6f4c3b4c554549522d5455454b495420474e4f4553474e4f4a204c55474e41483b42433131,
0x3b3b3b3b3b4e3b3b3b3b3b4c3b303b6f4c3b534f49532d4b4f4559494b2d4c5545495220474e4f4553474e4f4a204c55474e41483b43433131,
0x3b3b3b3b3b4e3b3b3b3b3b4c3b303b6f4c3b4e5545494e2d4c5545495220474e4f4553474e4f4a204c55474e41483b44433131,
0x3b3b3b3b3b4e3b3b3b3b3b4c3b303b6f4c3b5455454b49542d4c5545495220474e4f4553474e4f4a204c55474e41483b45433131,
0x3b3b3b3b3b4e3b3b3b3b3b4c3b303b6f4c3b48554549482d5455454b49542d4c5545495220474e4f4553474e4f4a204c55474e41483b46433131,
0x3b3b3b3b3b4e3b3b3b3b3b4c3b303b6f4c3b4c55454952474e41535320474e4f4553474e4f4a204c55474e41483b30443131,
0x3b3b3b3b3b4e3b3b3b3b3b4c3b303b6f4c3b4b4f4559494b2d4d5545494d2d4c5545495220474e4f4553474e4f4a204c55474e41483b31443131,
0x3b3b3b3b3b4e3b3b3b3b3b4c3b303b6f4c3b534f49532d4d5545494d2d4c5545495220474e4f4553474e4f4a204c55474e41483b32443131,
0x3b3b3b3b3b4e3b3b3b3b3b4c3b303b6f4c3b534f49532d50554549502d4c5545495220474e4f4553474e4f4a204c55474e41483b33443131,
0x3b3b3b3b3b4e3b3b3b3b3b4c3b303b6f4c3b48554549482d50554549502d4c5545495220474e4f4553474e4f4a204c55474e41483b34443131,
0x3b3b3b3b3b4e3b3b3b3b3b4c3b303b6f4c3b50554549504e554f455950414b2d4c5545495220474e4f4553474e4f4a204c55474e41483b35443131,
0x3b3b3b3b3b4e3b3b3b3b3b4c3b303b6f4c3b534f4953474e4153532d4c5545495220474e4f4553474e4f4a204c55474e41483b36443131,
0x3b3b3b3b3b4e3b3b3b3b3b4c3b303b6f4c3b534f49534e41502d4c5545495220474e4f4553474e4f4a204c55474e41483b37443131,
0x3b3b3b3b3b4e3b3b3b3b3b4c3b303b6f4c3b484b554549484b2d4c5545495220474e4f4553474e4f4a204c55474e41483b38443131,
0x3b3b3b3b3b4e3b3b3b3b3b4c3b303b6f4c3b48554549484e49524f45592d4c5545495220474e4f4553474e4f4a204c55474e41483b39443131,
0x3b3b3b3b3b4e3b3b3b3b3b4c3b303b6f4c3b4b4f4559494b2d4d5545494d20474e4f4553474e4f4a204c55474e41483b41443131,
0x3b3b3b3b3b4e3b3b3b3b3b4c3b303b6f4c3b4c554549522d4d5545494d20474e4f4553474e4f4a204c55474e41483b42443131,
0x3b3b3b3b3b4e3b3b3b3b3b4c3b303b6f4c3b50554549502d4d5545494d20474e4f4553474e4f4a204c55474e41483b43443131,
0x3b3b3b3b3b4e3b3b3b3b3b4c3b303b6f4c3b534f49532d4d5545494d20474e4f4553474e4f4a204c55474e41483b44443131,
0x3b3b3b3b3b4e3b3b3b3b3b4c3b303b6f4c3b534f4953474e4153532d4d5545494d20474e4f4553474e4f4a204c55474e41483b45443131,
0x3b3b3b3b3b4e3b3b3b3b3b4c3b303b6f4c3b534f49534e41502d4d5545494d20474e4f4553474e4f4a204c55474e41483b46443131,
0x3b3b3b3b3b4e3b3b3b3b3b4c3b303b6f4c3b484355454948432d4d5545494d20474e4f4553474e4f4a204c55474e41483b30453131,
0x3b3b3b3b3b4e3b3b3b3b3b4c3b303b6f4c3b48554549482d4d5545494d20474e4f4553474e4f4a204c55474e41483b31453131,
0x3b3b3b3b3b4e3b3b3b3b3b4c3b303b6f4c3b4d5545494d4e554f455950414b20474e4f4553474e4f4a204c55474e41483b32453131,
0x3b3b3b3b3b4e3b3b3b3b3b4c3b303b6f4c3b4c554549522d505545495020474e4f4553474e4f4a204c55474e41483b33453131,
0x3b3b3b3b3b4e3b3b3b3b3b4c3b303b6f4c3b485055454948502d505545495020474e4f4553474e4f4a204c55474e41483b34453131,
0x3b3b3b3b3b4e3b3b3b3b3b4c3b303b6f4c3b48554549482d505545495020474e4f4553474e4f4a204c55474e41483b35453131,
0x3b3b3b3b3b4e3b3b3b3b3b4c3b303b6f4c3b50554549504e554f455950414b20474e4f4553474e4f4a204c55474e41483b36453131,
0x3b3b3b3b3b4e3b3b3b3b3b4c3b303b6f4c3b4b4f4559494b2d534f495320474e4f4553474e4f4a204c55474e41483b37453131,
0x3b3b3b3b3b4e3b3b3b3b3b4c3b303b6f4c3b5455454b49542d534f495320474e4f4553474e4f4a204c55474e41483b38453131,
0x3b3b3b3b3b4e3b3b3b3b3b4c3b303b6f4c3b4c554549522d534f495320474e4f4553474e4f4a204c55474e41483b39453131,
0x3b3b3b3b3b4e3b3b3b3b3b4c3b303b6f4c3b50554549502d534f495320474e4f4553474e4f4a204c55474e41483b41453131,
0x3b3b3b3b3b4e3b3b3b3b3b4c3b303b6f4c3b534f49534e415020474e4f4553474e4f4a204c55474e41483b42453131,
0x3b3b3b3b3b4e3b3b3b3b3b4c3b303b6f4c3b4b4f4559494b2d474e55454920474e4f4553474e4f4a204c55474e41483b43453131,
0x3b3b3b3b3b4e3b3b3b3b3b4c3b303b6f4c3b4b4f4559494b474e4153532d474e55454920474e4f4553474e4f4a204c55474e41483b44453131,
0x3b3b3b3b3b4e3b3b3b3b3b4c3b303b6f4c3b474e554549474e41535320474e4f4553474e4f4a204c55474e41483b45453131,
0x3b3b3b3b3b4e3b3b3b3b3b4c3b303b6f4c3b484b554549484b2d474e55454920474e4f4553474e4f4a204c55474e41483b46453131,
0x3b3b3b3b3b4e3b3b3b3b3b4c3b303b6f4c3b474e55454953455920474e4f4553474e4f4a204c55474e41483b30463131,
0x3b3b3b3b3b4e3b3b3b3b3b4c3b303b6f4c3b534f49532d474e55454953455920474e4f4553474e4f4a204c55474e41483b31463131,
0x3b3b3b3b3b4e3b3b3b3b3b4c3b303b6f4c3b534f49534e41502d474e55454953455920474e4f4553474e4f4a204c55474e41483b32463131,
0x3b3b3b3b3b4e3b3b3b3b3b4c3b303b6f4c3b50554549502d4850554549485020474e4f4553474e4f4a204c55474e41483b33463131,
0x3b3b3b3b3b4e3b3b3b3b3b4c3b303b6f4c3b485055454948504e554f455950414b20474e4f4553474e4f4a204c55474e41483b34463131,
0x3b3b3b3b3b4e3b3b3b3b3b4c3b303b6f4c3b4e5545494e2d485545494820474e4f4553474e4f4a204c55474e41483b35463131,
0x3b3b3b3b3b4e3b3b3b3b3b4c3b303b6f4c3b4c554549522d485545494820474e4f4553474e4f4a204c55474e41483b36463131,
0x3b3b3b3b3b4e3b3b3b3b3b4c3b303b6f4c3b4d5545494d2d485545494820474e4f4553474e4f4a204c55474e41483b37463131,
0x3b3b3b3b3b4e3b3b3b3b3b4c3b303b6f4c3b50554549502d485545494820474e4f4553474e4f4a204c55474e41483b38463131,
0x3b3b3b3b3b4e3b3b3b3b3b4c3b303b6f4c3b48554549484e49524f455920474e4f4553474e4f4a204c55474e41483b39463131,
0x3b3b3b3b3b4e3b3b3b3b3b4c3b303b6f4c3b4e5545494e2d4b4f4559494b20474e4f4553474e4f4a204c55474e41483b41463131,
0x3b3b3b3b3b4e3b3b3b3b3b4c3b303b6f4c3b50554549502d4b4f4559494b20474e4f4553474e4f4a204c55474e41483b42463131,
0x3b3b3b3b3b4e3b3b3b3b3b4c3b303b6f4c3b484355454948432d4b4f4559494b20474e4f4553474e4f4a204c55474e41483b43463131,
0x3b3b3b3b3b4e3b3b3b3b3b4c3b303b6f4c3b484b554549484b2d4b4f4559494b20474e4f4553474e4f4a204c55474e41483b44463131,
0x3b3b3b3b3b4e3b3b3b3b3b4c3b303b6f4c3b48554549482d4b4f4559494b20474e4f4553474e4f4a204c55474e41483b45463131,
0x3b3b3b3b3b4e3b3b3b3b3b4c3b303b6f4c3b4e5545494e474e41535320474e4f4553474e4f4a204c55474e41483b46463131,
0x3b3b3b3b3b4e3b3b3b3b3b4c3b303b6f4c3b414820454c42414c4c5953204349504f494854453b30303231,
0x3b3b3b3b3b4e3b3b3b3b3b4c3b303b6f4c3b554820454c42414c4c5953204349504f494854453b31303231,
0x3b3b3b3b3b4e3b3b3b3b3b4c3b303b6f4c3b494820454c42414c4c5953204349504f494854453b32303231,
0x3b3b3b3b3b4e3b3b3b3b3b4c3b303b6f4c3b41414820454c42414c4c5953204349504f494854453b33303231,
0x3b3b3b3b3b4e3b3b3b3b3b4c3b303b6f4c3b45454820454c42414c4c5953204349504f494854453b34303231,
0x3b3b3b3b3b4e3b3b3b3b3b4c3b303b6f4c3b454820454c42414c4c5953204349504f494854453b35303231,
0x3b3b3b3b3b4e3b3b3b3b3b4c3b303b6f4c3b4f4820454c42414c4c5953204349504f494854453b36303231,
0x3b3b3b3b3b4e3b3b3b3b3b4c3b303b6f4c3b414f4820454c42414c4c5953204349504f494854453b37303231,
0x3b3b3b3b3b4e3b3b3b3b3b4c3b303b6f4c3b414c20454c42414c4c5953204349504f494854453b38303231,
0x3b3b3b3b3b4e3b3b3b3b3b4c3b303b6f4c3b554c20454c42414c4c5953204349504f494854453b39303231,
0x3b3b3b3b3b4e3b3b3b3b3b4c3b303b6f4c3b494c20454c42414c4c5953204349504f494854453b41303231,
0x3b3b3b3b3b4e3b3b3b3b3b4c3b303b6f4c3b41414c20454c42414c4c5953204349504f494854453b42303231,
0x3b3b3b3b3b4e3b3b3b3b3b4c3b303b6f4c3b45454c20454c42414c4c5953204349504f494854453b43303231,
0x3b3b3b3b3b4e3b3b3b3b3b4c3b303b6f4c3b454c20454c42414c4c5953204349504f494854453b44303231,
0x3b3b3b3b3b4e3b3b3b3b3b4c3b303b6f4c3b4f4c20454c42414c4c5953204349504f494854453b45303231,
0x3b3b3b3b3b4e3b3b3b3b3b4c3b303b6f4c3b41574c20454c42414c4c5953204349504f494854453b46303231,
0x3b3b3b3b3b4e3b3b3b3b3b4c3b303b6f4c3b41484820454c42414c4c5953204349504f494854453b30313231,
0x3b3b3b3b3b4e3b3b3b3b3b4c3b303b6f4c3b55484820454c42414c4c5953204349504f494854453b31313231,
0x3b3b3b3b3b4e3b3b3b3b3b4c3b303b6f4c3b49484820454c42414c4c5953204349504f494854453b32313231,
0x3b3b3b3b3b4e3b3b3b3b3b4c3b303b6f4c3b4141484820454c42414c4c5953204349504f494854453b33313231,
0x3b3b3b3b3b4e3b3b3b3b3b4c3b303b6f4c3b4545484820454c42414c4c5953204349504f494854453b34313231,
0x3b3b3b3b3b4e3b3b3b3b3b4c3b303b6f4c3b45484820454c42414c4c5953204349504f494854453b35313231,
0x3b3b3b3b3b4e3b3b3b3b3b4c3b303b6f4c3b4f484820454c42414c4c5953204349504f494854453b36313231,
0x3b3b3b3b3b4e3b3b3b3b3b4c3b303b6f4c3b4157484820454c42414c4c5953204349504f494854453b37313231,
0x3b3b3b3b3b4e3b3b3b3b3b4c3b303b6f4c3b414d20454c42414c4c5953204349504f494854453b38313231,
0x3b3b3b3b3b4e3b3b3b3b3b4c3b303b6f4c3b554d20454c42414c4c5953204349504f494854453b39313231,
0x3b3b3b3b3b4e3b3b3b3b3b4c3b303b6f4c3b494d20454c42414c4c5953204349504f494854453b41313231,
0x3b3b3b3b3b4e3b3b3b3b3b4c3b303b6f4c3b41414d20454c42414c4c5953204349504f494854453b42313231,
0x3b3b3b3b3b4e3b3b3b3b3b4c3b303b6f4c3b45454d20454c42414c4c5953204349504f494854453b43313231,
0x3b3b3b3b3b4e3b3b3b3b3b4c3b303b6f4c3b454d20454c42414c4c5953204349504f494854453b44313231,
0x3b3b3b3b3b4e3b3b3b3b3b4c3b303b6f4c3b4f4d20454c42414c4c5953204349504f494854453b45313231,
0x3b3b3b3b3b4e3b3b3b3b3b4c3b303b6f4c3b41574d20454c42414c4c5953204349504f494854453b46313231,
0x3b3b3b3b3b4e3b3b3b3b3b4c3b303b6f4c3b415a5320454c42414c4c5953204349504f494854453b30323231,
0x3b3b3b3b3b4e3b3b3b3b3b4c3b303b6f4c3b555a5320454c42414c4c5953204349504f494854453b31323231,
0x3b3b3b3b3b4e3b3b3b3b3b4c3b303b6f4c3b495a5320454c42414c4c5953204349504f494854453b32323231,
0x3b3b3b3b3b4e3b3b3b3b3b4c3b303b6f4c3b41415a5320454c42414c4c5953204349504f494854453b33323231,
0x3b3b3b3b3b4e3b3b3b3b3b4c3b303b6f4c3b45455a5320454c42414c4c5953204349504f494854453b34323231,
0x3b3b3b3b3b4e3b3b3b3b3b4c3b303b6f4c3b455a5320454c42414c4c5953204349504f494854453b35323231,
0x3b3b3b3b3b4e3b3b3b3b3b4c3b303b6f4c3b4f5a5320454c42414c4c5953204349504f494854453b36323231,
0x3b3b3b3b3b4e3b3b3b3b3b4c3b303b6f4c3b41575a5320454c42414c4c5953204349504f494854453b37323231,
0x3b3b3b3b3b4e3b3b3b3b3b4c3b303b6f4c3b415220454c42414c4c5953204349504f494854453b38323231,
0x3b3b3b3b3b4e3b3b3b3b3b4c3b303b6f4c3b555220454c42414c4c5953204349504f494854453b39323231,
0x3b3b3b3b3b4e3b3b3b3b3b4c3b303b6f4c3b495220454c42414c4c5953204349504f494854453b41323231,
0x3b3b3b3b3b4e3b3b3b3b3b4c3b303b6f4c3b41415220454c42414c4c5953204349504f494854453b42323231,
0x3b3b3b3b3b4e3b3b3b3b3b4c3b303b6f4c3b45455220454c42414c4c5953204349504f494854453b43323231,
0x3b3b3b3b3b4e3b3b3b3b3b4c3b303b6f4c3b455220454c42414c4c5953204349504f494854453b44323231,
0x3b3b3b3b3b4e3b3b3b3b3b4c3b303b6f4c3b4f5220454c42414c4c5953204349504f494854453b45323231,
0x3b3b3b3b3b4e3b3b3b3b3b4c3b303b6f4c3b41575220454c42414c4c5953204349504f494854453b46323231,
0x3b3b3b3b3b4e3b3b3b3b3b4c3b303b6f4c3b415320454c42414c4c5953204349504f494854453b30333231,
0x3b3b3b3b3b4e3b3b3b3b3b4c3b303b6f4c3b555320454c42414c4c5953204349504f494854453b31333231,
0x3b3b3b3b3b4e3b3b3b3b3b4c3b303b6f4c3b495320454c42414c4c5953204349504f494854453b32333231,
0x3b3b3b3b3b4e3b3b3b3b3b4c3b303b6f4c3b41415320454c42414c4c5953204349504f494854453b33333231,
0x3b3b3b3b3b4e3b3b3b3b3b4c3b303b6f4c3b45455320454c42414c4c5953204349504f494854453b34333231,
0x3b3b3b3b3b4e3b3b3b3b3b4c3b303b6f4c3b455320454c42414c4c5953204349504f494854453b35333231,
0x3b3b3b3b3b4e3b3b3b3b3b4c3b303b6f4c3b4f5320454c42414c4c5953204349504f494854453b36333231,
0x3b3b3b3b3b4e3b3b3b3b3b4c3b303b6f4c3b41575320454c42414c4c5953204349504f494854453b37333231,
0x3b3b3b3b3b4e3b3b3b3b3b4c3b303b6f4c3b41485320454c42414c4c5953204349504f494854453b38333231,
0x3b3b3b3b3b4e3b3b3b3b3b4c3b303b6f4c3b55485320454c42414c4c5953204349504f494854453b39333231,
0x3b3b3b3b3b4e3b3b3b3b3b4c3b303b6f4c3b49485320454c42414c4c5953204349504f494854453b41333231,
0x3b3b3b3b3b4e3b3b3b3b3b4c3b303b6f4c3b4141485320454c42414c4c5953204349504f494854453b42333231,
0x3b3b3b3b3b4e3b3b3b3b3b4c3b303b6f4c3b4545485320454c42414c4c5953204349504f494854453b43333231,
0x3b3b3b3b3b4e3b3b3b3b3b4c3b303b6f4c3b45485320454c42414c4c5953204349504f494854453b44333231,
0x3b3b3b3b3b4e3b3b3b3b3b4c3b303b6f4c3b4f485320454c42414c4c5953204349504f494854453b45333231,
0x3b3b3b3b3b4e3b3b3b3b3b4c3b303b6f4c3b4157485320454c42414c4c5953204349504f494854453b46333231,
0x3b3b3b3b3b4e3b3b3b3b3b4c3b303b6f4c3b415120454c42414c4c5953204349504f494854453b30343231,
0x3b3b3b3b3b4e3b3b3b3b3b4c3b303b6f4c3b555120454c42414c4c5953204349504f494854453b31343231,
0x3b3b3b3b3b4e3b3b3b3b3b4c3b303b6f4c3b495120454c42414c4c5953204349504f494854453b32343231,
0x3b3b3b3b3b4e3b3b3b3b3b4c3b303b6f4c3b41415120454c42414c4c5953204349504f494854453b33343231,
0x3b3b3b3b3b4e3b3b3b3b3b4c3b303b6f4c3b45455120454c42414c4c5953204349504f494854453b34343231,
0x3b3b3b3b3b4e3b3b3b3b3b4c3b303b6f4c3b455120454c42414c4c5953204349504f494854453b35343231,
0x3b3b3b3b3b4e3b3b3b3b3b4c3b303b6f4c3b4f5120454c42414c4c5953204349504f494854453b36343231,
0x3b3b3b3b3b4e3b3b3b3b3b4c3b303b6f4c3b414f5120454c42414c4c5953204349504f494854453b37343231,
0x3b3b3b3b3b4e3b3b3b3b3b4c3b303b6f4c3b41575120454c42414c4c5953204349504f494854453b38343231,
0x3b3b3b3b3b4e3b3b3b3b3b4c3b303b6f4c3b49575120454c42414c4c5953204349504f494854453b41343231,
0x3b3b3b3b3b4e3b3b3b3b3b4c3b303b6f4c3b4141575120454c42414c4c5953204349504f494854453b42343231,
0x3b3b3b3b3b4e3b3b3b3b3b4c3b303b6f4c3b4545575120454c42414c4c5953204349504f494854453b43343231,
0x3b3b3b3b3b4e3b3b3b3b3b4c3b303b6f4c3b45575120454c42414c4c5953204349504f494854453b44343231,
0x3b3b3b3b3b4e3b3b3b3b3b4c3b303b6f4c3b41485120454c42414c4c5953204349504f494854453b30353231,
0x3b3b3b3b3b4e3b3b3b3b3b4c3b303b6f4c3b55485120454c42414c4c5953204349504f494854453b31353231,
0x3b3b3b3b3b4e3b3b3b3b3b4c3b303b6f4c3b49485120454c42414c4c5953204349504f494854453b32353231,
0x3b3b3b3b3b4e3b3b3b3b3b4c3b303b6f4c3b4141485120454c42414c4c5953204349504f494854453b33353231,
0x3b3b3b3b3b4e3b3b3b3b3b4c3b303b6f4c3b4545485120454c42414c4c5953204349504f494854453b34353231,
0x3b3b3b3b3b4e3b3b3b3b3b4c3b303b6f4c3b45485120454c42414c4c5953204349504f494854453b35353231,
0x3b3b3b3b3b4e3b3b3b3b3b4c3b303b6f4c3b4f485120454c42414c4c5953204349504f494854453b36353231,
0x3b3b3b3b3b4e3b3b3b3b3b4c3b303b6f4c3b4157485120454c42414c4c5953204349504f494854453b38353231,
0x3b3b3b3b3b4e3b3b3b3b3b4c3b303b6f4c3b4957485120454c42414c4c5953204349504f494854453b41353231,
0x3b3b3b3b3b4e3b3b3b3b3b4c3b303b6f4c3b414157485120454c42414c4c5953204349504f494854453b42353231,
0x3b3b3b3b3b4e3b3b3b3b3b4c3b303b6f4c3b454557485120454c42414c4c5953204349504f494854453b43353231,
0x3b3b3b3b3b4e3b3b3b3b3b4c3b303b6f4c3b4557485120454c42414c4c5953204349504f494854453b44353231,
0x3b3b3b3b3b4e3b3b3b3b3b4c3b303b6f4c3b414220454c42414c4c5953204349504f494854453b30363231,
0x3b3b3b3b3b4e3b3b3b3b3b4c3b303b6f4c3b554220454c42414c4c5953204349504f494854453b31363231,
0x3b3b3b3b3b4e3b3b3b3b3b4c3b303b6f4c3b494220454c42414c4c5953204349504f494854453b32363231,
0x3b3b3b3b3b4e3b3b3b3b3b4c3b303b6f4c3b41414220454c42414c4c5953204349504f494854453b33363231,
0x3b3b3b3b3b4e3b3b3b3b3b4c3b303b6f4c3b45454220454c42414c4c5953204349504f494854453b34363231,
0x3b3b3b3b3b4e3b3b3b3b3b4c3b303b6f4c3b454220454c42414c4c5953204349504f494854453b35363231,
0x3b3b3b3b3b4e3b3b3b3b3b4c3b303b6f4c3b4f4220454c42414c4c5953204349504f494854453b36363231,
0x3b3b3b3b3b4e3b3b3b3b3b4c3b303b6f4c3b41574220454c42414c4c5953204349504f494854453b37363231,
0x3b3b3b3b3b4e3b3b3b3b3b4c3b303b6f4c3b415620454c42414c4c5953204349504f494854453b38363231,
0x3b3b3b3b3b4e3b3b3b3b3b4c3b303b6f4c3b555620454c42414c4c5953204349504f494854453b39363231,
0x3b3b3b3b3b4e3b3b3b3b3b4c3b303b6f4c3b495620454c42414c4c5953204349504f494854453b41363231,
0x3b3b3b3b3b4e3b3b3b3b3b4c3b303b6f4c3b41415620454c42414c4c5953204349504f494854453b42363231,
0x3b3b3b3b3b4e3b3b3b3b3b4c3b303b6f4c3b45455620454c42414c4c5953204349504f494854453b43363231,
0x3b3b3b3b3b4e3b3b3b3b3b4c3b303b6f4c3b455620454c42414c4c5953204349504f494854453b44363231,
0x3b3b3b3b3b4e3b3b3b3b3b4c3b303b6f4c3b4f5620454c42414c4c5953204349504f494854453b45363231,
0x3b3b3b3b3b4e3b3b3b3b3b4c3b303b6f4c3b41575620454c42414c4c5953204349504f494854453b46363231,
0x3b3b3b3b3b4e3b3b3b3b3b4c3b303b6f4c3b415420454c42414c4c5953204349504f494854453b30373231,
0x3b3b3b3b3b4e3b3b3b3b3b4c3b303b6f4c3b555420454c42414c4c5953204349504f494854453b31373231,
0x3b3b3b3b3b4e3b3b3b3b3b4c3b303b6f4c3b495420454c42414c4c5953204349504f494854453b32373231,
0x3b3b3b3b3b4e3b3b3b3b3b4c3b303b6f4c3b41415420454c42414c4c5953204349504f494854453b33373231,
0x3b3b3b3b3b4e3b3b3b3b3b4c3b303b6f4c3b45455420454c42414c4c5953204349504f494854453b34373231,
0x3b3b3b3b3b4e3b3b3b3b3b4c3b303b6f4c3b455420454c42414c4c5953204349504f494854453b35373231,
0x3b3b3b3b3b4e3b3b3b3b3b4c3b303b6f4c3b4f5420454c42414c4c5953204349504f494854453b36373231,
0x3b3b3b3b3b4e3b3b3b3b3b4c3b303b6f4c3b41575420454c42414c4c5953204349504f494854453b37373231,
0x3b3b3b3b3b4e3b3b3b3b3b4c3b303b6f4c3b414320454c42414c4c5953204349504f494854453b38373231,
0x3b3b3b3b3b4e3b3b3b3b3b4c3b303b6f4c3b554320454c42414c4c5953204349504f494854453b39373231,
0x3b3b3b3b3b4e3b3b3b3b3b4c3b303b6f4c3b494320454c42414c4c5953204349504f494854453b41373231,
0x3b3b3b3b3b4e3b3b3b3b3b4c3b303b6f4c3b41414320454c42414c4c5953204349504f494854453b42373231,
0x3b3b3b3b3b4e3b3b3b3b3b4c3b303b6f4c3b45454320454c42414c4c5953204349504f494854453b43373231,
0x3b3b3b3b3b4e3b3b3b3b3b4c3b303b6f4c3b454320454c42414c4c5953204349504f494854453b44373231,
0x3b3b3b3b3b4e3b3b3b3b3b4c3b303b6f4c3b4f4320454c42414c4c5953204349504f494854453b45373231,
0x3b3b3b3b3b4e3b3b3b3b3b4c3b303b6f4c3b41574320454c42414c4c5953204349504f494854453b46373231,
0x3b3b3b3b3b4e3b3b3b3b3b4c3b303b6f4c3b415820454c42414c4c5953204349504f494854453b30383231,
0x3b3b3b3b3b4e3b3b3b3b3b4c3b303b6f4c3b555820454c42414c4c5953204349504f494854453b31383231,
0x3b3b3b3b3b4e3b3b3b3b3b4c3b303b6f4c3b495820454c42414c4c5953204349504f494854453b32383231,
0x3b3b3b3b3b4e3b3b3b3b3b4c3b303b6f4c3b41415820454c42414c4c5953204349504f494854453b33383231,
0x3b3b3b3b3b4e3b3b3b3b3b4c3b303b6f4c3b45455820454c42414c4c5953204349504f494854453b34383231,
0x3b3b3b3b3b4e3b3b3b3b3b4c3b303b6f4c3b455820454c42414c4c5953204349504f494854453b35383231,
0x3b3b3b3b3b4e3b3b3b3b3b4c3b303b6f4c3b4f5820454c42414c4c5953204349504f494854453b36383231,
0x3b3b3b3b3b4e3b3b3b3b3b4c3b303b6f4c3b414f5820454c42414c4c5953204349504f494854453b37383231,
0x3b3b3b3b3b4e3b3b3b3b3b4c3b303b6f4c3b41575820454c42414c4c5953204349504f494854453b38383231,
0x3b3b3b3b3b4e3b3b3b3b3b4c3b303b6f4c3b49575820454c42414c4c5953204349504f494854453b41383231,
0x3b3b3b3b3b4e3b3b3b3b3b4c3b303b6f4c3b4141575820454c42414c4c5953204349504f494854453b42383231,
0x3b3b3b3b3b4e3b3b3b3b3b4c3b303b6f4c3b4545575820454c42414c4c5953204349504f494854453b43383231,
0x3b3b3b3b3b4e3b3b3b3b3b4c3b303b6f4c3b45575820454c42414c4c5953204349504f494854453b44383231,
0x3b3b3b3b3b4e3b3b3b3b3b4c3b303b6f4c3b414e20454c42414c4c5953204349504f494854453b30393231,
0x3b3b3b3b3b4e3b3b3b3b3b4c3b303b6f4c3b554e20454c42414c4c5953204349504f494854453b31393231,
0x3b3b3b3b3b4e3b3b3b3b3b4c3b303b6f4c3b494e20454c42414c4c5953204349504f494854453b32393231,
0x3b3b3b3b3b4e3b3b3b3b3b4c3b303b6f4c3b41414e20454c42414c4c5953204349504f494854453b33393231,
0x3b3b3b3b3b4e3b3b3b3b3b4c3b303b6f4c3b45454e20454c42414c4c5953204349504f494854453b34393231,
0x3b3b3b3b3b4e3b3b3b3b3b4c3b303b6f4c3b454e20454c42414c4c5953204349504f494854453b35393231,
0x3b3b3b3b3b4e3b3b3b3b3b4c3b303b6f4c3b4f4e20454c42414c4c5953204349504f494854453b36393231,
0x3b3b3b3b3b4e3b3b3b3b3b4c3b303b6f4c3b41574e20454c42414c4c5953204349504f494854453b37393231,
0x3b3b3b3b3b4e3b3b3b3b3b4c3b303b6f4c3b41594e20454c42414c4c5953204349504f494854453b38393231,
0x3b3b3b3b3b4e3b3b3b3b3b4c3b303b6f4c3b55594e20454c42414c4c5953204349504f494854453b39393231,
0x3b3b3b3b3b4e3b3b3b3b3b4c3b303b6f4c3b49594e20454c42414c4c5953204349504f494854453b41393231]

/-- src/u5e/props/UnicodeData.txt lines 4097-4352. -/
def rawUcd16 : List Nat := [
0x3b3b3b3b3b4e3b3b3b3b3b4c3b303b6f4c3b4141594e20454c42414c4c5953204349504f494854453b42393231,
0x3b3b3b3b3b4e3b3b3b3b3b4c3b303b6f4c3b4545594e20454c42414c4c5953204349504f494854453b43393231,
0x3b3b3b3b3b4e3b3b3b3b3b4c3b303b6f4c3b45594e20454c42414c4c5953204349504f494854453b44393231,
0x3b3b3b3b3b4e3b3b3b3b3b4c3b303b6f4c3b4f594e20454c42414c4c5953204349504f494854453b45393231,
0x3b3b3b3b3b4e3b3b3b3b3b4c3b303b6f4c3b4157594e20454c42414c4c5953204349504f494854453b46393231,
0x3b3b3b3b3b4e3b3b3b3b3b4c3b303b6f4c3b41204c4154544f4c4720454c42414c4c5953204349504f494854453b30413231,
0x3b3b3b3b3b4e3b3b3b3b3b4c3b303b6f4c3b55204c4154544f4c4720454c42414c4c5953204349504f494854453b31413231,
0x3b3b3b3b3b4e3b3b3b3b3b4c3b303b6f4c3b49204c4154544f4c4720454c42414c4c5953204349504f494854453b32413231,
0x3b3b3b3b3b4e3b3b3b3b3b4c3b303b6f4c3b4141204c4154544f4c4720454c42414c4c5953204349504f494854453b33413231,
0x3b3b3b3b3b4e3b3b3b3b3b4c3b303b6f4c3b4545204c4154544f4c4720454c42414c4c5953204349504f494854453b34413231,
0x3b3b3b3b3b4e3b3b3b3b3b4c3b303b6f4c3b45204c4154544f4c4720454c42414c4c5953204349504f494854453b35413231,
0x3b3b3b3b3b4e3b3b3b3b3b4c3b303b6f4c3b4f204c4154544f4c4720454c42414c4c5953204349504f494854453b36413231,
0x3b3b3b3b3b4e3b3b3b3b3b4c3b303b6f4c3b4157204c4154544f4c4720454c42414c4c5953204349504f494854453b37413231,
0x3b3b3b3b3b4e3b3b3b3b3b4c3b303b6f4c3b414b20454c42414c4c5953204349504f494854453b38413231,
0x3b3b3b3b3b4e3b3b3b3b3b4c3b303b6f4c3b554b20454c42414c4c5953204349504f494854453b39413231,
0x3b3b3b3b3b4e3b3b3b3b3b4c3b303b6f4c3b494b20454c42414c4c5953204349504f494854453b41413231,
0x3b3b3b3b3b4e3b3b3b3b3b4c3b303b6f4c3b41414b20454c42414c4c5953204349504f494854453b42413231,
0x3b3b3b3b3b4e3b3b3b3b3b4c3b303b6f4c3b45454b20454c42414c4c5953204349504f494854453b43413231,
0x3b3b3b3b3b4e3b3b3b3b3b4c3b303b6f4c3b454b20454c42414c4c5953204349504f494854453b44413231,
0x3b3b3b3b3b4e3b3b3b3b3b4c3b303b6f4c3b4f4b20454c42414c4c5953204349504f494854453b45413231,
0x3b3b3b3b3b4e3b3b3b3b3b4c3b303b6f4c3b414f4b20454c42414c4c5953204349504f494854453b46413231,
0x3b3b3b3b3b4e3b3b3b3b3b4c3b303b6f4c3b41574b20454c42414c4c5953204349504f494854453b30423231,
0x3b3b3b3b3b4e3b3b3b3b3b4c3b303b6f4c3b49574b20454c42414c4c5953204349504f494854453b32423231,
0x3b3b3b3b3b4e3b3b3b3b3b4c3b303b6f4c3b4141574b20454c42414c4c5953204349504f494854453b33423231,
0x3b3b3b3b3b4e3b3b3b3b3b4c3b303b6f4c3b4545574b20454c42414c4c5953204349504f494854453b34423231,
0x3b3b3b3b3b4e3b3b3b3b3b4c3b303b6f4c3b45574b20454c42414c4c5953204349504f494854453b35423231,
0x3b3b3b3b3b4e3b3b3b3b3b4c3b303b6f4c3b41584b20454c42414c4c5953204349504f494854453b38423231,
0x3b3b3b3b3b4e3b3b3b3b3b4c3b303b6f4c3b55584b20454c42414c4c5953204349504f494854453b39423231,
0x3b3b3b3b3b4e3b3b3b3b3b4c3b303b6f4c3b49584b20454c42414c4c5953204349504f494854453b41423231,
0x3b3b3b3b3b4e3b3b3b3b3b4c3b303b6f4c3b4141584b20454c42414c4c5953204349504f494854453b42423231,
0x3b3b3b3b3b4e3b3b3b3b3b4c3b303b6f4c3b4545584b20454c42414c4c5953204349504f494854453b43423231,
0x3b3b3b3b3b4e3b3b3b3b3b4c3b303b6f4c3b45584b20454c42414c4c5953204349504f494854453b44423231,
0x3b3b3b3b3b4e3b3b3b3b3b4c3b303b6f4c3b4f584b20454c42414c4c5953204349504f494854453b45423231,
0x3b3b3b3b3b4e3b3b3b3b3b4c3b303b6f4c3b4157584b20454c42414c4c5953204349504f494854453b30433231,
0x3b3b3b3b3b4e3b3b3b3b3b4c3b303b6f4c3b4957584b20454c42414c4c5953204349504f494854453b32433231,
0x3b3b3b3b3b4e3b3b3b3b3b4c3b303b6f4c3b414157584b20454c42414c4c5953204349504f494854453b33433231,
0x3b3b3b3b3b4e3b3b3b3b3b4c3b303b6f4c3b454557584b20454c42414c4c5953204349504f494854453b34433231,
0x3b3b3b3b3b4e3b3b3b3b3b4c3b303b6f4c3b4557584b20454c42414c4c5953204349504f494854453b35433231,
0x3b3b3b3b3b4e3b3b3b3b3b4c3b303b6f4c3b415720454c42414c4c5953204349504f494854453b38433231,
0x3b3b3b3b3b4e3b3b3b3b3b4c3b303b6f4c3b555720454c42414c4c5953204349504f494854453b39433231,
0x3b3b3b3b3b4e3b3b3b3b3b4c3b303b6f4c3b495720454c42414c4c5953204349504f494854453b41433231,
0x3b3b3b3b3b4e3b3b3b3b3b4c3b303b6f4c3b41415720454c42414c4c5953204349504f494854453b42433231,
0x3b3b3b3b3b4e3b3b3b3b3b4c3b303b6f4c3b45455720454c42414c4c5953204349504f494854453b43433231,
0x3b3b3b3b3b4e3b3b3b3b3b4c3b303b6f4c3b455720454c42414c4c5953204349504f494854453b44433231,
0x3b3b3b3b3b4e3b3b3b3b3b4c3b303b6f4c3b4f5720454c42414c4c5953204349504f494854453b45433231,
0x3b3b3b3b3b4e3b3b3b3b3b4c3b303b6f4c3b414f5720454c42414c4c5953204349504f494854453b46433231,
0x3b3b3b3b3b4e3b3b3b3b3b4c3b303b6f4c3b41204c4145474e595241485020454c42414c4c5953204349504f494854453b30443231,
0x3b3b3b3b3b4e3b3b3b3b3b4c3b303b6f4c3b55204c4145474e595241485020454c42414c4c5953204349504f494854453b31443231,
0x3b3b3b3b3b4e3b3b3b3b3b4c3b303b6f4c3b49204c4145474e595241485020454c42414c4c5953204349504f494854453b32443231,
0x3b3b3b3b3b4e3b3b3b3b3b4c3b303b6f4c3b4141204c4145474e595241485020454c42414c4c5953204349504f494854453b33443231,
0x3b3b3b3b3b4e3b3b3b3b3b4c3b303b6f4c3b4545204c4145474e595241485020454c42414c4c5953204349504f494854453b34443231,
0x3b3b3b3b3b4e3b3b3b3b3b4c3b303b6f4c3b45204c4145474e595241485020454c42414c4c5953204349504f494854453b35443231,
0x3b3b3b3b3b4e3b3b3b3b3b4c3b303b6f4c3b4f204c4145474e595241485020454c42414c4c5953204349504f494854453b36443231,
0x3b3b3b3b3b4e3b3b3b3b3b4c3b303b6f4c3b415a20454c42414c4c5953204349504f494854453b38443231,
0x3b3b3b3b3b4e3b3b3b3b3b4c3b303b6f4c3b555a20454c42414c4c5953204349504f494854453b39443231,
0x3b3b3b3b3b4e3b3b3b3b3b4c3b303b6f4c3b495a20454c42414c4c5953204349504f494854453b41443231,
0x3b3b3b3b3b4e3b3b3b3b3b4c3b303b6f4c3b41415a20454c42414c4c5953204349504f494854453b42443231,
0x3b3b3b3b3b4e3b3b3b3b3b4c3b303b6f4c3b45455a20454c42414c4c5953204349504f494854453b43443231,
0x3b3b3b3b3b4e3b3b3b3b3b4c3b303b6f4c3b455a20454c42414c4c5953204349504f494854453b44443231,
0x3b3b3b3b3b4e3b3b3b3b3b4c3b303b6f4c3b4f5a20454c42414c4c5953204349504f494854453b45443231,
0x3b3b3b3b3b4e3b3b3b3b3b4c3b303b6f4c3b41575a20454c42414c4c5953204349504f494854453b46443231,
0x3b3b3b3b3b4e3b3b3b3b3b4c3b303b6f4c3b41485a20454c42414c4c5953204349504f494854453b30453231,
0x3b3b3b3b3b4e3b3b3b3b3b4c3b303b6f4c3b55485a20454c42414c4c5953204349504f494854453b31453231,
0x3b3b3b3b3b4e3b3b3b3b3b4c3b303b6f4c3b49485a20454c42414c4c5953204349504f494854453b32453231,
0x3b3b3b3b3b4e3b3b3b3b3b4c3b303b6f4c3b4141485a20454c42414c4c5953204349504f494854453b33453231,
0x3b3b3b3b3b4e3b3b3b3b3b4c3b303b6f4c3b4545485a20454c42414c4c5953204349504f494854453b34453231,
0x3b3b3b3b3b4e3b3b3b3b3b4c3b303b6f4c3b45485a20454c42414c4c5953204349504f494854453b35453231,
0x3b3b3b3b3b4e3b3b3b3b3b4c3b303b6f4c3b4f485a20454c42414c4c5953204349504f494854453b36453231,
0x3b3b3b3b3b4e3b3b3b3b3b4c3b303b6f4c3b4157485a20454c42414c4c5953204349504f494854453b37453231,
0x3b3b3b3b3b4e3b3b3b3b3b4c3b303b6f4c3b415920454c42414c4c5953204349504f494854453b38453231,
0x3b3b3b3b3b4e3b3b3b3b3b4c3b303b6f4c3b555920454c42414c4c5953204349504f494854453b39453231,
0x3b3b3b3b3b4e3b3b3b3b3b4c3b303b6f4c3b495920454c42414c4c5953204349504f494854453b41453231,
0x3b3b3b3b3b4e3b3b3b3b3b4c3b303b6f4c3b41415920454c42414c4c5953204349504f494854453b42453231,
0x3b3b3b3b3b4e3b3b3b3b3b4c3b303b6f4c3b45455920454c42414c4c5953204349504f494854453b43453231,
0x3b3b3b3b3b4e3b3b3b3b3b4c3b303b6f4c3b455920454c42414c4c5953204349504f494854453b44453231,
0x3b3b3b3b3b4e3b3b3b3b3b4c3b303b6f4c3b4f5920454c42414c4c5953204349504f494854453b45453231,
0x3b3b3b3b3b4e3b3b3b3b3b4c3b303b6f4c3b414f5920454c42414c4c5953204349504f494854453b46453231,
0x3b3b3b3b3b4e3b3b3b3b3b4c3b303b6f4c3b414420454c42414c4c5953204349504f494854453b30463231,
0x3b3b3b3b3b4e3b3b3b3b3b4c3b303b6f4c3b554420454c42414c4c5953204349504f494854453b31463231,
0x3b3b3b3b3b4e3b3b3b3b3b4c3b303b6f4c3b494420454c42414c4c5953204349504f494854453b32463231,
0x3b3b3b3b3b4e3b3b3b3b3b4c3b303b6f4c3b41414420454c42414c4c5953204349504f494854453b33463231,
0x3b3b3b3b3b4e3b3b3b3b3b4c3b303b6f4c3b45454420454c42414c4c5953204349504f494854453b34463231,
0x3b3b3b3b3b4e3b3b3b3b3b4c3b303b6f4c3b454420454c42414c4c5953204349504f494854453b35463231,
0x3b3b3b3b3b4e3b3b3b3b3b4c3b303b6f4c3b4f4420454c42414c4c5953204349504f494854453b36463231,
0x3b3b3b3b3b4e3b3b3b3b3b4c3b303b6f4c3b41574420454c42414c4c5953204349504f494854453b37463231,
0x3b3b3b3b3b4e3b3b3b3b3b4c3b303b6f4c3b41444420454c42414c4c5953204349504f494854453b38463231,
0x3b3b3b3b3b4e3b3b3b3b3b4c3b303b6f4c3b55444420454c42414c4c5953204349504f494854453b39463231,
0x3b3b3b3b3b4e3b3b3b3b3b4c3b303b6f4c3b49444420454c42414c4c5953204349504f494854453b41463231,
0x3b3b3b3b3b4e3b3b3b3b3b4c3b303b6f4c3b4141444420454c42414c4c5953204349504f494854453b42463231,
0x3b3b3b3b3b4e3b3b3b3b3b4c3b303b6f4c3b4545444420454c42414c4c5953204349504f494854453b43463231,
0x3b3b3b3b3b4e3b3b3b3b3b4c3b303b6f4c3b45444420454c42414c4c5953204349504f494854453b44463231,
0x3b3b3b3b3b4e3b3b3b3b3b4c3b303b6f4c3b4f444420454c42414c4c5953204349504f494854453b45463231,
0x3b3b3b3b3b4e3b3b3b3b3b4c3b303b6f4c3b4157444420454c42414c4c5953204349504f494854453b46463231,
0x3b3b3b3b3b4e3b3b3b3b3b4c3b303b6f4c3b414a20454c42414c4c5953204349504f494854453b30303331,
0x3b3b3b3b3b4e3b3b3b3b3b4c3b303b6f4c3b554a20454c42414c4c5953204349504f494854453b31303331,
0x3b3b3b3b3b4e3b3b3b3b3b4c3b303b6f4c3b494a20454c42414c4c5953204349504f494854453b32303331,
0x3b3b3b3b3b4e3b3b3b3b3b4c3b303b6f4c3b41414a20454c42414c4c5953204349504f494854453b33303331,
0x3b3b3b3b3b4e3b3b3b3b3b4c3b303b6f4c3b45454a20454c42414c4c5953204349504f494854453b34303331,
0x3b3b3b3b3b4e3b3b3b3b3b4c3b303b6f4c3b454a20454c42414c4c5953204349504f494854453b35303331,
0x3b3b3b3b3b4e3b3b3b3b3b4c3b303b6f4c3b4f4a20454c42414c4c5953204349504f494854453b36303331,
0x3b3b3b3b3b4e3b3b3b3b3b4c3b303b6f4c3b41574a20454c42414c4c5953204349504f494854453b37303331,
0x3b3b3b3b3b4e3b3b3b3b3b4c3b303b6f4c3b414720454c42414c4c5953204349504f494854453b38303331,
0x3b3b3b3b3b4e3b3b3b3b3b4c3b303b6f4c3b554720454c42414c4c5953204349504f494854453b39303331,
0x3b3b3b3b3b4e3b3b3b3b3b4c3b303b6f4c3b494720454c42414c4c5953204349504f494854453b41303331,
0x3b3b3b3b3b4e3b3b3b3b3b4c3b303b6f4c3b41414720454c42414c4c5953204349504f494854453b42303331,
0x3b3b3b3b3b4e3b3b3b3b3b4c3b303b6f4c3b45454720454c42414c4c5953204349504f494854453b43303331,
0x3b3b3b3b3b4e3b3b3b3b3b4c3b303b6f4c3b454720454c42414c4c5953204349504f494854453b44303331,
0x3b3b3b3b3b4e3b3b3b3b3b4c3b303b6f4c3b4f4720454c42414c4c5953204349504f494854453b45303331,
0x3b3b3b3b3b4e3b3b3b3b3b4c3b303b6f4c3b414f4720454c42414c4c5953204349504f494854453b46303331,
0x3b3b3b3b3b4e3b3b3b3b3b4c3b303b6f4c3b41574720454c42414c4c5953204349504f494854453b30313331,
0x3b3b3b3b3b4e3b3b3b3b3b4c3b303b6f4c3b49574720454c42414c4c5953204349504f494854453b32313331,
0x3b3b3b3b3b4e3b3b3b3b3b4c3b303b6f4c3b4141574720454c42414c4c5953204349504f494854453b33313331,
0x3b3b3b3b3b4e3b3b3b3b3b4c3b303b6f4c3b4545574720454c42414c4c5953204349504f494854453b34313331,
0x3b3b3b3b3b4e3b3b3b3b3b4c3b303b6f4c3b45574720454c42414c4c5953204349504f494854453b35313331,
0x3b3b3b3b3b4e3b3b3b3b3b4c3b303b6f4c3b41474720454c42414c4c5953204349504f494854453b38313331,
0x3b3b3b3b3b4e3b3b3b3b3b4c3b303b6f4c3b55474720454c42414c4c5953204349504f494854453b39313331,
0x3b3b3b3b3b4e3b3b3b3b3b4c3b303b6f4c3b49474720454c42414c4c5953204349504f494854453b41313331,
0x3b3b3b3b3b4e3b3b3b3b3b4c3b303b6f4c3b4141474720454c42414c4c5953204349504f494854453b42313331,
0x3b3b3b3b3b4e3b3b3b3b3b4c3b303b6f4c3b4545474720454c42414c4c5953204349504f494854453b43313331,
0x3b3b3b3b3b4e3b3b3b3b3b4c3b303b6f4c3b45474720454c42414c4c5953204349504f494854453b44313331,
0x3b3b3b3b3b4e3b3b3b3b3b4c3b303b6f4c3b4f474720454c42414c4c5953204349504f494854453b45313331,
0x3b3b3b3b3b4e3b3b3b3b3b4c3b303b6f4c3b414157474720454c42414c4c5953204349504f494854453b46313331,
0x3b3b3b3b3b4e3b3b3b3b3b4c3b303b6f4c3b41485420454c42414c4c5953204349504f494854453b30323331,
0x3b3b3b3b3b4e3b3b3b3b3b4c3b303b6f4c3b55485420454c42414c4c5953204349504f494854453b31323331,
0x3b3b3b3b3b4e3b3b3b3b3b4c3b303b6f4c3b49485420454c42414c4c5953204349504f494854453b32323331,
0x3b3b3b3b3b4e3b3b3b3b3b4c3b303b6f4c3b4141485420454c42414c4c5953204349504f494854453b33323331,
0x3b3b3b3b3b4e3b3b3b3b3b4c3b303b6f4c3b4545485420454c42414c4c5953204349504f494854453b34323331,
0x3b3b3b3b3b4e3b3b3b3b3b4c3b303b6f4c3b45485420454c42414c4c5953204349504f494854453b35323331,
0x3b3b3b3b3b4e3b3b3b3b3b4c3b303b6f4c3b4f485420454c42414c4c5953204349504f494854453b36323331,
0x3b3b3b3b3b4e3b3b3b3b3b4c3b303b6f4c3b4157485420454c42414c4c5953204349504f494854453b37323331,
0x3b3b3b3b3b4e3b3b3b3b3b4c3b303b6f4c3b41484320454c42414c4c5953204349504f494854453b38323331,
0x3b3b3b3b3b4e3b3b3b3b3b4c3b303b6f4c3b55484320454c42414c4c5953204349504f494854453b39323331,
0x3b3b3b3b3b4e3b3b3b3b3b4c3b303b6f4c3b49484320454c42414c4c5953204349504f494854453b41323331,
0x3b3b3b3b3b4e3b3b3b3b3b4c3b303b6f4c3b4141484320454c42414c4c5953204349504f494854453b42323331,
0x3b3b3b3b3b4e3b3b3b3b3b4c3b303b6f4c3b4545484320454c42414c4c5953204349504f494854453b43323331,
0x3b3b3b3b3b4e3b3b3b3b3b4c3b303b6f4c3b45484320454c42414c4c5953204349504f494854453b44323331,
0x3b3b3b3b3b4e3b3b3b3b3b4c3b303b6f4c3b4f484320454c42414c4c5953204349504f494854453b45323331,
0x3b3b3b3b3b4e3b3b3b3b3b4c3b303b6f4c3b4157484320454c42414c4c5953204349504f494854453b46323331,
0x3b3b3b3b3b4e3b3b3b3b3b4c3b303b6f4c3b41485020454c42414c4c5953204349504f494854453b30333331,
0x3b3b3b3b3b4e3b3b3b3b3b4c3b303b6f4c3b55485020454c42414c4c5953204349504f494854453b31333331,
0x3b3b3b3b3b4e3b3b3b3b3b4c3b303b6f4c3b49485020454c42414c4c5953204349504f494854453b32333331,
0x3b3b3b3b3b4e3b3b3b3b3b4c3b303b6f4c3b4141485020454c42414c4c5953204349504f494854453b33333331,
0x3b3b3b3b3b4e3b3b3b3b3b4c3b303b6f4c3b4545485020454c42414c4c5953204349504f494854453b34333331,
0x3b3b3b3b3b4e3b3b3b3b3b4c3b303b6f4c3b45485020454c42414c4c5953204349504f494854453b35333331,
0x3b3b3b3b3b4e3b3b3b3b3b4c3b303b6f4c3b4f485020454c42414c4c5953204349504f494854453b36333331,
0x3b3b3b3b3b4e3b3b3b3b3b4c3b303b6f4c3b4157485020454c42414c4c5953204349504f494854453b37333331,
0x3b3b3b3b3b4e3b3b3b3b3b4c3b303b6f4c3b41535420454c42414c4c5953204349504f494854453b38333331,
0x3b3b3b3b3b4e3b3b3b3b3b4c3b303b6f4c3b55535420454c42414c4c5953204349504f494854453b39333331,
0x3b3b3b3b3b4e3b3b3b3b3b4c3b303b6f4c3b49535420454c42414c4c5953204349504f494854453b41333331,
0x3b3b3b3b3b4e3b3b3b3b3b4c3b303b6f4c3b4141535420454c42414c4c5953204349504f494854453b42333331,
0x3b3b3b3b3b4e3b3b3b3b3b4c3b303b6f4c3b4545535420454c42414c4c5953204349504f494854453b43333331,
0x3b3b3b3b3b4e3b3b3b3b3b4c3b303b6f4c3b45535420454c42414c4c5953204349504f494854453b44333331,
0x3b3b3b3b3b4e3b3b3b3b3b4c3b303b6f4c3b4f535420454c42414c4c5953204349504f494854453b45333331,
0x3b3b3b3b3b4e3b3b3b3b3b4c3b303b6f4c3b4157535420454c42414c4c5953204349504f494854453b46333331,
0x3b3b3b3b3b4e3b3b3b3b3b4c3b303b6f4c3b415a5420454c42414c4c5953204349504f494854453b30343331,
0x3b3b3b3b3b4e3b3b3b3b3b4c3b303b6f4c3b555a5420454c42414c4c5953204349504f494854453b31343331,
0x3b3b3b3b3b4e3b3b3b3b3b4c3b303b6f4c3b495a5420454c42414c4c5953204349504f494854453b32343331,
0x3b3b3b3b3b4e3b3b3b3b3b4c3b303b6f4c3b41415a5420454c42414c4c5953204349504f494854453b33343331,
0x3b3b3b3b3b4e3b3b3b3b3b4c3b303b6f4c3b45455a5420454c42414c4c5953204349504f494854453b34343331,
0x3b3b3b3b3b4e3b3b3b3b3b4c3b303b6f4c3b455a5420454c42414c4c5953204349504f494854453b35343331,
0x3b3b3b3b3b4e3b3b3b3b3b4c3b303b6f4c3b4f5a5420454c42414c4c5953204349504f494854453b36343331,
0x3b3b3b3b3b4e3b3b3b3b3b4c3b303b6f4c3b414f5a5420454c42414c4c5953204349504f494854453b37343331,
0x3b3b3b3b3b4e3b3b3b3b3b4c3b303b6f4c3b414620454c42414c4c5953204349504f494854453b38343331,
0x3b3b3b3b3b4e3b3b3b3b3b4c3b303b6f4c3b554620454c42414c4c5953204349504f494854453b39343331,
0x3b3b3b3b3b4e3b3b3b3b3b4c3b303b6f4c3b494620454c42414c4c5953204349504f494854453b41343331,
0x3b3b3b3b3b4e3b3b3b3b3b4c3b303b6f4c3b41414620454c42414c4c5953204349504f494854453b42343331,
0x3b3b3b3b3b4e3b3b3b3b3b4c3b303b6f4c3b45454620454c42414c4c5953204349504f494854453b43343331,
0x3b3b3b3b3b4e3b3b3b3b3b4c3b303b6f4c3b454620454c42414c4c5953204349504f494854453b44343331,
0x3b3b3b3b3b4e3b3b3b3b3b4c3b303b6f4c3b4f4620454c42414c4c5953204349504f494854453b45343331,
0x3b3b3b3b3b4e3b3b3b3b3b4c3b303b6f4c3b41574620454c42414c4c5953204349504f494854453b46343331,
0x3b3b3b3b3b4e3b3b3b3b3b4c3b303b6f4c3b415020454c42414c4c5953204349504f494854453b30353331,
0x3b3b3b3b3b4e3b3b3b3b3b4c3b303b6f4c3b555020454c42414c4c5953204349504f494854453b31353331,
0x3b3b3b3b3b4e3b3b3b3b3b4c3b303b6f4c3b495020454c42414c4c5953204349504f494854453b32353331,
0x3b3b3b3b3b4e3b3b3b3b3b4c3b303b6f4c3b41415020454c42414c4c5953204349504f494854453b33353331,
0x3b3b3b3b3b4e3b3b3b3b3b4c3b303b6f4c3b45455020454c42414c4c5953204349504f494854453b34353331,
0x3b3b3b3b3b4e3b3b3b3b3b4c3b303b6f4c3b455020454c42414c4c5953204349504f494854453b35353331,
0x3b3b3b3b3b4e3b3b3b3b3b4c3b303b6f4c3b4f5020454c42414c4c5953204349504f494854453b36353331,
0x3b3b3b3b3b4e3b3b3b3b3b4c3b303b6f4c3b41575020454c42414c4c5953204349504f494854453b37353331,
0x3b3b3b3b3b4e3b3b3b3b3b4c3b303b6f4c3b41595220454c42414c4c5953204349504f494854453b38353331,
0x3b3b3b3b3b4e3b3b3b3b3b4c3b303b6f4c3b41594d20454c42414c4c5953204349504f494854453b39353331,
0x3b3b3b3b3b4e3b3b3b3b3b4c3b303b6f4c3b41594620454c42414c4c5953204349504f494854453b41353331,
0x3b3b3b3b3b4e3b3b3b3b3b4d534e3b3033323b6e4d3b4b52414d204854474e454c204c45574f5620444e41204e4f4954414e494d454720474e494e49424d4f43204349504f494854453b44353331,
0x3b3b3b3b3b4e3b3b3b3b3b4d534e3b3033323b6e4d3b4b52414d204854474e454c204c45574f5620474e494e49424d4f43204349504f494854453b45353331,
0x3b3b3b3b3b4e3b3b3b3b3b4d534e3b3033323b6e4d3b4b52414d204e4f4954414e494d454720474e494e49424d4f43204349504f494854453b46353331,
0x3b3b3b3b3b4e3b3b3b3b3b4c3b303b6f503b4b52414d204e4f4954434553204349504f494854453b30363331,
0x3b3b3b3b3b4e3b3b3b3b3b4c3b303b6f503b454341505344524f57204349504f494854453b31363331,
0x3b3b3b3b3b4e3b3b3b3b3b4c3b303b6f503b504f5453204c4c5546204349504f494854453b32363331,
0x3b3b3b3b3b4e3b3b3b3b3b4c3b303b6f503b414d4d4f43204349504f494854453b33363331,
0x3b3b3b3b3b4e3b3b3b3b3b4c3b303b6f503b4e4f4c4f43494d4553204349504f494854453b34363331,
0x3b3b3b3b3b4e3b3b3b3b3b4c3b303b6f503b4e4f4c4f43204349504f494854453b35363331,
0x3b3b3b3b3b4e3b3b3b3b3b4c3b303b6f503b4e4f4c4f432045434146455250204349504f494854453b36363331,
0x3b3b3b3b3b4e3b3b3b3b3b4c3b303b6f503b4b52414d204e4f495453455551204349504f494854453b37363331,
0x3b3b3b3b3b4e3b3b3b3b3b4c3b303b6f503b524f5441524150455320485041524741524150204349504f494854453b38363331,
0x3b3b3b3b3b4e3b313b313b3b3b4c3b303b6f4e3b454e4f205449474944204349504f494854453b39363331,
0x3b3b3b3b3b4e3b323b323b3b3b4c3b303b6f4e3b4f5754205449474944204349504f494854453b41363331,
0x3b3b3b3b3b4e3b333b333b3b3b4c3b303b6f4e3b4545524854205449474944204349504f494854453b42363331,
0x3b3b3b3b3b4e3b343b343b3b3b4c3b303b6f4e3b52554f46205449474944204349504f494854453b43363331,
0x3b3b3b3b3b4e3b353b353b3b3b4c3b303b6f4e3b45564946205449474944204349504f494854453b44363331,
0x3b3b3b3b3b4e3b363b363b3b3b4c3b303b6f4e3b584953205449474944204349504f494854453b45363331,
0x3b3b3b3b3b4e3b373b373b3b3b4c3b303b6f4e3b4e45564553205449474944204349504f494854453b46363331,
0x3b3b3b3b3b4e3b383b383b3b3b4c3b303b6f4e3b5448474945205449474944204349504f494854453b30373331,
0x3b3b3b3b3b4e3b393b393b3b3b4c3b303b6f4e3b454e494e205449474944204349504f494854453b31373331,
0x3b3b3b3b3b4e3b30313b3b3b3b4c3b303b6f4e3b4e4554205245424d554e204349504f494854453b32373331,
0x3b3b3b3b3b4e3b30323b3b3b3b4c3b303b6f4e3b59544e455754205245424d554e204349504f494854453b33373331,
0x3b3b3b3b3b4e3b30333b3b3b3b4c3b303b6f4e3b595452494854205245424d554e204349504f494854453b34373331,
0x3b3b3b3b3b4e3b30343b3b3b3b4c3b303b6f4e3b5954524f46205245424d554e204349504f494854453b35373331,
0x3b3b3b3b3b4e3b30353b3b3b3b4c3b303b6f4e3b5954464946205245424d554e204349504f494854453b36373331,
0x3b3b3b3b3b4e3b30363b3b3b3b4c3b303b6f4e3b5954584953205245424d554e204349504f494854453b37373331,
0x3b3b3b3b3b4e3b30373b3b3b3b4c3b303b6f4e3b59544e45564553205245424d554e204349504f494854453b38373331,
0x3b3b3b3b3b4e3b30383b3b3b3b4c3b303b6f4e3b595448474945205245424d554e204349504f494854453b39373331,
0x3b3b3b3b3b4e3b30393b3b3b3b4c3b303b6f4e3b5954454e494e205245424d554e204349504f494854453b41373331,
0x3b3b3b3b3b4e3b3030313b3b3b3b4c3b303b6f4e3b444552444e5548205245424d554e204349504f494854453b42373331,
0x3b3b3b3b3b4e3b30303030313b3b3b3b4c3b303b6f4e3b444e4153554f4854204e4554205245424d554e204349504f494854453b43373331,
0x3b3b3b3b3b4e3b3b3b3b3b4c3b303b6f4c3b41574d2054494542544142455320454c42414c4c5953204349504f494854453b30383331,
0x3b3b3b3b3b4e3b3b3b3b3b4c3b303b6f4c3b49574d20454c42414c4c5953204349504f494854453b31383331,
0x3b3b3b3b3b4e3b3b3b3b3b4c3b303b6f4c3b4545574d20454c42414c4c5953204349504f494854453b32383331,
0x3b3b3b3b3b4e3b3b3b3b3b4c3b303b6f4c3b45574d20454c42414c4c5953204349504f494854453b33383331,
0x3b3b3b3b3b4e3b3b3b3b3b4c3b303b6f4c3b4157422054494542544142455320454c42414c4c5953204349504f494854453b34383331,
0x3b3b3b3b3b4e3b3b3b3b3b4c3b303b6f4c3b49574220454c42414c4c5953204349504f494854453b35383331,
0x3b3b3b3b3b4e3b3b3b3b3b4c3b303b6f4c3b4545574220454c42414c4c5953204349504f494854453b36383331,
0x3b3b3b3b3b4e3b3b3b3b3b4c3b303b6f4c3b45574220454c42414c4c5953204349504f494854453b37383331,
0x3b3b3b3b3b4e3b3b3b3b3b4c3b303b6f4c3b4157462054494542544142455320454c42414c4c5953204349504f494854453b38383331,
0x3b3b3b3b3b4e3b3b3b3b3b4c3b303b6f4c3b49574620454c42414c4c5953204349504f494854453b39383331,
0x3b3b3b3b3b4e3b3b3b3b3b4c3b303b6f4c3b4545574620454c42414c4c5953204349504f494854453b41383331,
0x3b3b3b3b3b4e3b3b3b3b3b4c3b303b6f4c3b45574620454c42414c4c5953204349504f494854453b42383331,
0x3b3b3b3b3b4e3b3b3b3b3b4c3b303b6f4c3b4157502054494542544142455320454c42414c4c5953204349504f494854453b43383331,
0x3b3b3b3b3b4e3b3b3b3b3b4c3b303b6f4c3b49575020454c42414c4c5953204349504f494854453b44383331,
0x3b3b3b3b3b4e3b3b3b3b3b4c3b303b6f4c3b4545575020454c42414c4c5953204349504f494854453b45383331,
0x3b3b3b3b3b4e3b3b3b3b3b4c3b303b6f4c3b45575020454c42414c4c5953204349504f494854453b46383331,
0x3b3b3b3b3b4e3b3b3b3b3b4e4f3b303b6f533b54455a4959204b52414d204c414e4f54204349504f494854453b30393331,
0x3b3b3b3b3b4e3b3b3b3b3b4e4f3b303b6f533b5445524544204b52414d204c414e4f54204349504f494854453b31393331,
0x3b3b3b3b3b4e3b3b3b3b3b4e4f3b303b6f533b4b49524b4952204b52414d204c414e4f54204349504f494854453b32393331,
0x3b3b3b3b3b4e3b3b3b3b3b4e4f3b303b6f533b4b49524b49522054524f4853204b52414d204c414e4f54204349504f494854453b33393331,
0x3b3b3b3b3b4e3b3b3b3b3b4e4f3b303b6f533b5441464944204b52414d204c414e4f54204349504f494854453b34393331,
0x3b3b3b3b3b4e3b3b3b3b3b4e4f3b303b6f533b54414e454b204b52414d204c414e4f54204349504f494854453b35393331,
0x3b3b3b3b3b4e3b3b3b3b3b4e4f3b303b6f533b544552494843204b52414d204c414e4f54204349504f494854453b36393331,
0x3b3b3b3b3b4e3b3b3b3b3b4e4f3b303b6f533b5445444948204b52414d204c414e4f54204349504f494854453b37393331,
0x3b3b3b3b3b4e3b3b3b3b3b4e4f3b303b6f533b54454449482d5445524544204b52414d204c414e4f54204349504f494854453b38393331,
0x3b3b3b3b3b4e3b3b3b3b3b4e4f3b303b6f533b5452554b204b52414d204c414e4f54204349504f494854453b39393331,
0x3b303742413b3b3b3b4e3b3b3b3b3b4c3b303b754c3b412052455454454c2045454b4f524548433b30413331,
0x3b313742413b3b3b3b4e3b3b3b3b3b4c3b303b754c3b452052455454454c2045454b4f524548433b31413331,
0x3b323742413b3b3b3b4e3b3b3b3b3b4c3b303b754c3b492052455454454c2045454b4f524548433b32413331,
0x3b333742413b3b3b3b4e3b3b3b3b3b4c3b303b754c3b4f2052455454454c2045454b4f524548433b33413331,
0x3b343742413b3b3b3b4e3b3b3b3b3b4c3b303b754c3b552052455454454c2045454b4f524548433b34413331,
0x3b353742413b3b3b3b4e3b3b3b3b3b4c3b303b754c3b562052455454454c2045454b4f524548433b35413331,
0x3b363742413b3b3b3b4e3b3b3b3b3b4c3b303b754c3b41472052455454454c2045454b4f524548433b36413331,
0x3b373742413b3b3b3b4e3b3b3b3b3b4c3b303b754c3b414b2052455454454c2045454b4f524548433b37413331,
0x3b383742413b3b3b3b4e3b3b3b3b3b4c3b303b754c3b45472052455454454c2045454b4f524548433b38413331,
0x3b393742413b3b3b3b4e3b3b3b3b3b4c3b303b754c3b49472052455454454c2045454b4f524548433b39413331,
0x3b413742413b3b3b3b4e3b3b3b3b3b4c3b303b754c3b4f472052455454454c2045454b4f524548433b41413331,
0x3b423742413b3b3b3b4e3b3b3b3b3b4c3b303b754c3b55472052455454454c2045454b4f524548433b42413331,
0x3b433742413b3b3b3b4e3b3b3b3b3b4c3b303b754c3b56472052455454454c2045454b4f524548433b43413331,
0x3b443742413b3b3b3b4e3b3b3b3b3b4c3b303b754c3b41482052455454454c2045454b4f524548433b44413331,
0x3b453742413b3b3b3b4e3b3b3b3b3b4c3b303b754c3b45482052455454454c2045454b4f524548433b45413331,
0x3b463742413b3b3b3b4e3b3b3b3b3b4c3b303b754c3b49482052455454454c2045454b4f524548433b46413331,
0x3b303842413b3b3b3b4e3b3b3b3b3b4c3b303b754c3b4f482052455454454c2045454b4f524548433b30423331]

/-- src/u5e/props/UnicodeData.txt lines 4353-4608. -/
def rawUcd17 : List Nat := [
0x3b313842413b3b3b3b4e3b3b3b3b3b4c3b303b754c3b55482052455454454c2045454b4f524548433b31423331,
0x3b323842413b3b3b3b4e3b3b3b3b3b4c3b303b754c3b56482052455454454c2045454b4f524548433b32423331,
0x3b333842413b3b3b3b4e3b3b3b3b3b4c3b303b754c3b414c2052455454454c2045454b4f524548433b33423331,
0x3b343842413b3b3b3b4e3b3b3b3b3b4c3b303b754c3b454c2052455454454c2045454b4f524548433b34423331,
0x3b353842413b3b3b3b4e3b3b3b3b3b4c3b303b754c3b494c2052455454454c2045454b4f524548433b35423331,
0x3b363842413b3b3b3b4e3b3b3b3b3b4c3b303b754c3b4f4c2052455454454c2045454b4f524548433b36423331,
0x3b373842413b3b3b3b4e3b3b3b3b3b4c3b303b754c3b554c2052455454454c2045454b4f524548433b37423331,
0x3b383842413b3b3b3b4e3b3b3b3b3b4c3b303b754c3b564c2052455454454c2045454b4f524548433b38423331,
0x3b393842413b3b3b3b4e3b3b3b3b3b4c3b303b754c3b414d2052455454454c2045454b4f524548433b39423331,
0x3b413842413b3b3b3b4e3b3b3b3b3b4c3b303b754c3b454d2052455454454c2045454b4f524548433b41423331,
0x3b423842413b3b3b3b4e3b3b3b3b3b4c3b303b754c3b494d2052455454454c2045454b4f524548433b42423331,
0x3b433842413b3b3b3b4e3b3b3b3b3b4c3b303b754c3b4f4d2052455454454c2045454b4f524548433b43423331,
0x3b443842413b3b3b3b4e3b3b3b3b3b4c3b303b754c3b554d2052455454454c2045454b4f524548433b44423331,
0x3b453842413b3b3b3b4e3b3b3b3b3b4c3b303b754c3b414e2052455454454c2045454b4f524548433b45423331,
0x3b463842413b3b3b3b4e3b3b3b3b3b4c3b303b754c3b414e482052455454454c2045454b4f524548433b46423331,
0x3b303942413b3b3b3b4e3b3b3b3b3b4c3b303b754c3b48414e2052455454454c2045454b4f524548433b30433331,
0x3b313942413b3b3b3b4e3b3b3b3b3b4c3b303b754c3b454e2052455454454c2045454b4f524548433b31433331,
0x3b323942413b3b3b3b4e3b3b3b3b3b4c3b303b754c3b494e2052455454454c2045454b4f524548433b32433331,
0x3b333942413b3b3b3b4e3b3b3b3b3b4c3b303b754c3b4f4e2052455454454c2045454b4f524548433b33433331,
0x3b343942413b3b3b3b4e3b3b3b3b3b4c3b303b754c3b554e2052455454454c2045454b4f524548433b34433331,
0x3b353942413b3b3b3b4e3b3b3b3b3b4c3b303b754c3b564e2052455454454c2045454b4f524548433b35433331,
0x3b363942413b3b3b3b4e3b3b3b3b3b4c3b303b754c3b4155512052455454454c2045454b4f524548433b36433331,
0x3b373942413b3b3b3b4e3b3b3b3b3b4c3b303b754c3b4555512052455454454c2045454b4f524548433b37433331,
0x3b383942413b3b3b3b4e3b3b3b3b3b4c3b303b754c3b4955512052455454454c2045454b4f524548433b38433331,
0x3b393942413b3b3b3b4e3b3b3b3b3b4c3b303b754c3b4f55512052455454454c2045454b4f524548433b39433331,
0x3b413942413b3b3b3b4e3b3b3b3b3b4c3b303b754c3b5555512052455454454c2045454b4f524548433b41433331,
0x3b423942413b3b3b3b4e3b3b3b3b3b4c3b303b754c3b5655512052455454454c2045454b4f524548433b42433331,
0x3b433942413b3b3b3b4e3b3b3b3b3b4c3b303b754c3b41532052455454454c2045454b4f524548433b43433331,
0x3b443942413b3b3b3b4e3b3b3b3b3b4c3b303b754c3b532052455454454c2045454b4f524548433b44433331,
0x3b453942413b3b3b3b4e3b3b3b3b3b4c3b303b754c3b45532052455454454c2045454b4f524548433b45433331,
0x3b463942413b3b3b3b4e3b3b3b3b3b4c3b303b754c3b49532052455454454c2045454b4f524548433b46433331,
0x3b304142413b3b3b3b4e3b3b3b3b3b4c3b303b754c3b4f532052455454454c2045454b4f524548433b30443331,
0x3b314142413b3b3b3b4e3b3b3b3b3b4c3b303b754c3b55532052455454454c2045454b4f524548433b31443331,
0x3b324142413b3b3b3b4e3b3b3b3b3b4c3b303b754c3b56532052455454454c2045454b4f524548433b32443331,
0x3b334142413b3b3b3b4e3b3b3b3b3b4c3b303b754c3b41442052455454454c2045454b4f524548433b33443331,
0x3b344142413b3b3b3b4e3b3b3b3b3b4c3b303b754c3b41542052455454454c2045454b4f524548433b34443331,
0x3b354142413b3b3b3b4e3b3b3b3b3b4c3b303b754c3b45442052455454454c2045454b4f524548433b35443331,
0x3b364142413b3b3b3b4e3b3b3b3b3b4c3b303b754c3b45542052455454454c2045454b4f524548433b36443331,
0x3b374142413b3b3b3b4e3b3b3b3b3b4c3b303b754c3b49442052455454454c2045454b4f524548433b37443331,
0x3b384142413b3b3b3b4e3b3b3b3b3b4c3b303b754c3b49542052455454454c2045454b4f524548433b38443331,
0x3b394142413b3b3b3b4e3b3b3b3b3b4c3b303b754c3b4f442052455454454c2045454b4f524548433b39443331,
0x3b414142413b3b3b3b4e3b3b3b3b3b4c3b303b754c3b55442052455454454c2045454b4f524548433b41443331,
0x3b424142413b3b3b3b4e3b3b3b3b3b4c3b303b754c3b56442052455454454c2045454b4f524548433b42443331,
0x3b434142413b3b3b3b4e3b3b3b3b3b4c3b303b754c3b414c442052455454454c2045454b4f524548433b43443331,
0x3b444142413b3b3b3b4e3b3b3b3b3b4c3b303b754c3b414c542052455454454c2045454b4f524548433b44443331,
0x3b454142413b3b3b3b4e3b3b3b3b3b4c3b303b754c3b454c542052455454454c2045454b4f524548433b45443331,
0x3b464142413b3b3b3b4e3b3b3b3b3b4c3b303b754c3b494c542052455454454c2045454b4f524548433b46443331,
0x3b304242413b3b3b3b4e3b3b3b3b3b4c3b303b754c3b4f4c542052455454454c2045454b4f524548433b30453331,
0x3b314242413b3b3b3b4e3b3b3b3b3b4c3b303b754c3b554c542052455454454c2045454b4f524548433b31453331,
0x3b324242413b3b3b3b4e3b3b3b3b3b4c3b303b754c3b564c542052455454454c2045454b4f524548433b32453331,
0x3b334242413b3b3b3b4e3b3b3b3b3b4c3b303b754c3b4153542052455454454c2045454b4f524548433b33453331,
0x3b344242413b3b3b3b4e3b3b3b3b3b4c3b303b754c3b4553542052455454454c2045454b4f524548433b34453331,
0x3b354242413b3b3b3b4e3b3b3b3b3b4c3b303b754c3b4953542052455454454c2045454b4f524548433b35453331,
0x3b364242413b3b3b3b4e3b3b3b3b3b4c3b303b754c3b4f53542052455454454c2045454b4f524548433b36453331,
0x3b374242413b3b3b3b4e3b3b3b3b3b4c3b303b754c3b5553542052455454454c2045454b4f524548433b37453331,
0x3b384242413b3b3b3b4e3b3b3b3b3b4c3b303b754c3b5653542052455454454c2045454b4f524548433b38453331,
0x3b394242413b3b3b3b4e3b3b3b3b3b4c3b303b754c3b41572052455454454c2045454b4f524548433b39453331,
0x3b414242413b3b3b3b4e3b3b3b3b3b4c3b303b754c3b45572052455454454c2045454b4f524548433b41453331,
0x3b424242413b3b3b3b4e3b3b3b3b3b4c3b303b754c3b49572052455454454c2045454b4f524548433b42453331,
0x3b434242413b3b3b3b4e3b3b3b3b3b4c3b303b754c3b4f572052455454454c2045454b4f524548433b43453331,
0x3b444242413b3b3b3b4e3b3b3b3b3b4c3b303b754c3b55572052455454454c2045454b4f524548433b44453331,
0x3b454242413b3b3b3b4e3b3b3b3b3b4c3b303b754c3b56572052455454454c2045454b4f524548433b45453331,
0x3b464242413b3b3b3b4e3b3b3b3b3b4c3b303b754c3b41592052455454454c2045454b4f524548433b46453331,
0x3b384633313b3b3b3b4e3b3b3b3b3b4c3b303b754c3b45592052455454454c2045454b4f524548433b30463331,
0x3b394633313b3b3b3b4e3b3b3b3b3b4c3b303b754c3b49592052455454454c2045454b4f524548433b31463331,
0x3b414633313b3b3b3b4e3b3b3b3b3b4c3b303b754c3b4f592052455454454c2045454b4f524548433b32463331,
0x3b424633313b3b3b3b4e3b3b3b3b3b4c3b303b754c3b55592052455454454c2045454b4f524548433b33463331,
0x3b434633313b3b3b3b4e3b3b3b3b3b4c3b303b754c3b56592052455454454c2045454b4f524548433b34463331,
0x3b444633313b3b3b3b4e3b3b3b3b3b4c3b303b754c3b564d2052455454454c2045454b4f524548433b35463331,
0x304633313b3b304633313b3b3b4e3b3b3b3b3b4c3b303b6c4c3b45592052455454454c204c4c414d532045454b4f524548433b38463331,
0x314633313b3b314633313b3b3b4e3b3b3b3b3b4c3b303b6c4c3b49592052455454454c204c4c414d532045454b4f524548433b39463331,
0x324633313b3b324633313b3b3b4e3b3b3b3b3b4c3b303b6c4c3b4f592052455454454c204c4c414d532045454b4f524548433b41463331,
0x334633313b3b334633313b3b3b4e3b3b3b3b3b4c3b303b6c4c3b55592052455454454c204c4c414d532045454b4f524548433b42463331,
0x344633313b3b344633313b3b3b4e3b3b3b3b3b4c3b303b6c4c3b56592052455454454c204c4c414d532045454b4f524548433b43463331,
0x354633313b3b354633313b3b3b4e3b3b3b3b3b4c3b303b6c4c3b564d2052455454454c204c4c414d532045454b4f524548433b44463331,
0x3b3b3b3b3b4e3b3b3b3b3b4e4f3b303b64503b4e45485059482053434942414c4c5953204e414944414e41433b30303431,
0x3b3b3b3b3b4e3b3b3b3b3b4c3b303b6f4c3b452053434942414c4c5953204e414944414e41433b31303431,
0x3b3b3b3b3b4e3b3b3b3b3b4c3b303b6f4c3b4941412053434942414c4c5953204e414944414e41433b32303431,
0x3b3b3b3b3b4e3b3b3b3b3b4c3b303b6f4c3b492053434942414c4c5953204e414944414e41433b33303431,
0x3b3b3b3b3b4e3b3b3b3b3b4c3b303b6f4c3b49492053434942414c4c5953204e414944414e41433b34303431,
0x3b3b3b3b3b4e3b3b3b3b3b4c3b303b6f4c3b4f2053434942414c4c5953204e414944414e41433b35303431,
0x3b3b3b3b3b4e3b3b3b3b3b4c3b303b6f4c3b4f4f2053434942414c4c5953204e414944414e41433b36303431,
0x3b3b3b3b3b4e3b3b3b3b3b4c3b303b6f4c3b4f4f20454552432d592053434942414c4c5953204e414944414e41433b37303431,
0x3b3b3b3b3b4e3b3b3b3b3b4c3b303b6f4c3b454520524549525241432053434942414c4c5953204e414944414e41433b38303431,
0x3b3b3b3b3b4e3b3b3b3b3b4c3b303b6f4c3b4920524549525241432053434942414c4c5953204e414944414e41433b39303431,
0x3b3b3b3b3b4e3b3b3b3b3b4c3b303b6f4c3b412053434942414c4c5953204e414944414e41433b41303431,
0x3b3b3b3b3b4e3b3b3b3b3b4c3b303b6f4c3b41412053434942414c4c5953204e414944414e41433b42303431,
0x3b3b3b3b3b4e3b3b3b3b3b4c3b303b6f4c3b45572053434942414c4c5953204e414944414e41433b43303431,
0x3b3b3b3b3b4e3b3b3b3b3b4c3b303b6f4c3b455720454552432d545345572053434942414c4c5953204e414944414e41433b44303431,
0x3b3b3b3b3b4e3b3b3b3b3b4c3b303b6f4c3b49572053434942414c4c5953204e414944414e41433b45303431,
0x3b3b3b3b3b4e3b3b3b3b3b4c3b303b6f4c3b495720454552432d545345572053434942414c4c5953204e414944414e41433b46303431,
0x3b3b3b3b3b4e3b3b3b3b3b4c3b303b6f4c3b4949572053434942414c4c5953204e414944414e41433b30313431,
0x3b3b3b3b3b4e3b3b3b3b3b4c3b303b6f4c3b49495720454552432d545345572053434942414c4c5953204e414944414e41433b31313431,
0x3b3b3b3b3b4e3b3b3b3b3b4c3b303b6f4c3b4f572053434942414c4c5953204e414944414e41433b32313431,
0x3b3b3b3b3b4e3b3b3b3b3b4c3b303b6f4c3b4f5720454552432d545345572053434942414c4c5953204e414944414e41433b33313431,
0x3b3b3b3b3b4e3b3b3b3b3b4c3b303b6f4c3b4f4f572053434942414c4c5953204e414944414e41433b34313431,
0x3b3b3b3b3b4e3b3b3b3b3b4c3b303b6f4c3b4f4f5720454552432d545345572053434942414c4c5953204e414944414e41433b35313431,
0x3b3b3b3b3b4e3b3b3b3b3b4c3b303b6f4c3b4f4f57204950414b53414e2053434942414c4c5953204e414944414e41433b36313431,
0x3b3b3b3b3b4e3b3b3b3b3b4c3b303b6f4c3b41572053434942414c4c5953204e414944414e41433b37313431,
0x3b3b3b3b3b4e3b3b3b3b3b4c3b303b6f4c3b415720454552432d545345572053434942414c4c5953204e414944414e41433b38313431,
0x3b3b3b3b3b4e3b3b3b3b3b4c3b303b6f4c3b4141572053434942414c4c5953204e414944414e41433b39313431,
0x3b3b3b3b3b4e3b3b3b3b3b4c3b303b6f4c3b41415720454552432d545345572053434942414c4c5953204e414944414e41433b41313431,
0x3b3b3b3b3b4e3b3b3b3b3b4c3b303b6f4c3b414157204950414b53414e2053434942414c4c5953204e414944414e41433b42313431,
0x3b3b3b3b3b4e3b3b3b3b3b4c3b303b6f4c3b49412053434942414c4c5953204e414944414e41433b43313431,
0x3b3b3b3b3b4e3b3b3b3b3b4c3b303b6f4c3b5720454552432d592053434942414c4c5953204e414944414e41433b44313431,
0x3b3b3b3b3b4e3b3b3b3b3b4c3b303b6f4c3b504f5453204c4154544f4c472053434942414c4c5953204e414944414e41433b45313431,
0x3b3b3b3b3b4e3b3b3b3b3b4c3b303b6f4c3b4554554341204c414e49462053434942414c4c5953204e414944414e41433b46313431,
0x3b3b3b3b3b4e3b3b3b3b3b4c3b303b6f4c3b4556415247204c414e49462053434942414c4c5953204e414944414e41433b30323431,
0x3b3b3b3b3b4e3b3b3b3b3b4c3b303b6f4c3b474e495220464c4148204d4f54544f42204c414e49462053434942414c4c5953204e414944414e41433b31323431,
0x3b3b3b3b3b4e3b3b3b3b3b4c3b303b6f4c3b474e495220464c414820504f54204c414e49462053434942414c4c5953204e414944414e41433b32323431,
0x3b3b3b3b3b4e3b3b3b3b3b4c3b303b6f4c3b474e495220464c4148205448474952204c414e49462053434942414c4c5953204e414944414e41433b33323431,
0x3b3b3b3b3b4e3b3b3b3b3b4c3b303b6f4c3b474e4952204c414e49462053434942414c4c5953204e414944414e41433b34323431,
0x3b3b3b3b3b4e3b3b3b3b3b4c3b303b6f4c3b455455434120454c42554f44204c414e49462053434942414c4c5953204e414944414e41433b35323431,
0x3b3b3b3b3b4e3b3b3b3b3b4c3b303b6f4c3b53454b4f525453204c414349545245562054524f485320454c42554f44204c414e49462053434942414c4c5953204e414944414e41433b36323431,
0x3b3b3b3b3b4e3b3b3b3b3b4c3b303b6f4c3b544f4420454c4444494d204c414e49462053434942414c4c5953204e414944414e41433b37323431,
0x3b3b3b3b3b4e3b3b3b3b3b4c3b303b6f4c3b454b4f525453204c41544e4f5a49524f482054524f4853204c414e49462053434942414c4c5953204e414944414e41433b38323431,
0x3b3b3b3b3b4e3b3b3b3b3b4c3b303b6f4c3b53554c50204c414e49462053434942414c4c5953204e414944414e41433b39323431,
0x3b3b3b3b3b4e3b3b3b3b3b4c3b303b6f4c3b4b434154204e574f44204c414e49462053434942414c4c5953204e414944414e41433b41323431,
0x3b3b3b3b3b4e3b3b3b3b3b4c3b303b6f4c3b4e452053434942414c4c5953204e414944414e41433b42323431,
0x3b3b3b3b3b4e3b3b3b3b3b4c3b303b6f4c3b4e492053434942414c4c5953204e414944414e41433b43323431,
0x3b3b3b3b3b4e3b3b3b3b3b4c3b303b6f4c3b4e4f2053434942414c4c5953204e414944414e41433b44323431,
0x3b3b3b3b3b4e3b3b3b3b3b4c3b303b6f4c3b4e412053434942414c4c5953204e414944414e41433b45323431,
0x3b3b3b3b3b4e3b3b3b3b3b4c3b303b6f4c3b45502053434942414c4c5953204e414944414e41433b46323431,
0x3b3b3b3b3b4e3b3b3b3b3b4c3b303b6f4c3b494141502053434942414c4c5953204e414944414e41433b30333431,
0x3b3b3b3b3b4e3b3b3b3b3b4c3b303b6f4c3b49502053434942414c4c5953204e414944414e41433b31333431,
0x3b3b3b3b3b4e3b3b3b3b3b4c3b303b6f4c3b4949502053434942414c4c5953204e414944414e41433b32333431,
0x3b3b3b3b3b4e3b3b3b3b3b4c3b303b6f4c3b4f502053434942414c4c5953204e414944414e41433b33333431,
0x3b3b3b3b3b4e3b3b3b3b3b4c3b303b6f4c3b4f4f502053434942414c4c5953204e414944414e41433b34333431,
0x3b3b3b3b3b4e3b3b3b3b3b4c3b303b6f4c3b4f4f5020454552432d592053434942414c4c5953204e414944414e41433b35333431,
0x3b3b3b3b3b4e3b3b3b3b3b4c3b303b6f4c3b45454820524549525241432053434942414c4c5953204e414944414e41433b36333431,
0x3b3b3b3b3b4e3b3b3b3b3b4c3b303b6f4c3b494820524549525241432053434942414c4c5953204e414944414e41433b37333431,
0x3b3b3b3b3b4e3b3b3b3b3b4c3b303b6f4c3b41502053434942414c4c5953204e414944414e41433b38333431,
0x3b3b3b3b3b4e3b3b3b3b3b4c3b303b6f4c3b4141502053434942414c4c5953204e414944414e41433b39333431,
0x3b3b3b3b3b4e3b3b3b3b3b4c3b303b6f4c3b4557502053434942414c4c5953204e414944414e41433b41333431,
0x3b3b3b3b3b4e3b3b3b3b3b4c3b303b6f4c3b45575020454552432d545345572053434942414c4c5953204e414944414e41433b42333431,
0x3b3b3b3b3b4e3b3b3b3b3b4c3b303b6f4c3b4957502053434942414c4c5953204e414944414e41433b43333431,
0x3b3b3b3b3b4e3b3b3b3b3b4c3b303b6f4c3b49575020454552432d545345572053434942414c4c5953204e414944414e41433b44333431,
0x3b3b3b3b3b4e3b3b3b3b3b4c3b303b6f4c3b494957502053434942414c4c5953204e414944414e41433b45333431,
0x3b3b3b3b3b4e3b3b3b3b3b4c3b303b6f4c3b4949575020454552432d545345572053434942414c4c5953204e414944414e41433b46333431,
0x3b3b3b3b3b4e3b3b3b3b3b4c3b303b6f4c3b4f57502053434942414c4c5953204e414944414e41433b30343431,
0x3b3b3b3b3b4e3b3b3b3b3b4c3b303b6f4c3b4f575020454552432d545345572053434942414c4c5953204e414944414e41433b31343431,
0x3b3b3b3b3b4e3b3b3b3b3b4c3b303b6f4c3b4f4f57502053434942414c4c5953204e414944414e41433b32343431,
0x3b3b3b3b3b4e3b3b3b3b3b4c3b303b6f4c3b4f4f575020454552432d545345572053434942414c4c5953204e414944414e41433b33343431,
0x3b3b3b3b3b4e3b3b3b3b3b4c3b303b6f4c3b4157502053434942414c4c5953204e414944414e41433b34343431,
0x3b3b3b3b3b4e3b3b3b3b3b4c3b303b6f4c3b41575020454552432d545345572053434942414c4c5953204e414944414e41433b35343431,
0x3b3b3b3b3b4e3b3b3b3b3b4c3b303b6f4c3b414157502053434942414c4c5953204e414944414e41433b36343431,
0x3b3b3b3b3b4e3b3b3b3b3b4c3b303b6f4c3b4141575020454552432d545345572053434942414c4c5953204e414944414e41433b37343431,
0x3b3b3b3b3b4e3b3b3b3b3b4c3b303b6f4c3b4141575020454552432d592053434942414c4c5953204e414944414e41433b38343431,
0x3b3b3b3b3b4e3b3b3b3b3b4c3b303b6f4c3b502053434942414c4c5953204e414944414e41433b39343431,
0x3b3b3b3b3b4e3b3b3b3b3b4c3b303b6f4c3b5020454552432d545345572053434942414c4c5953204e414944414e41433b41343431,
0x3b3b3b3b3b4e3b3b3b3b3b4c3b303b6f4c3b4820524549525241432053434942414c4c5953204e414944414e41433b42343431,
0x3b3b3b3b3b4e3b3b3b3b3b4c3b303b6f4c3b45542053434942414c4c5953204e414944414e41433b43343431,
0x3b3b3b3b3b4e3b3b3b3b3b4c3b303b6f4c3b494141542053434942414c4c5953204e414944414e41433b44343431,
0x3b3b3b3b3b4e3b3b3b3b3b4c3b303b6f4c3b49542053434942414c4c5953204e414944414e41433b45343431,
0x3b3b3b3b3b4e3b3b3b3b3b4c3b303b6f4c3b4949542053434942414c4c5953204e414944414e41433b46343431,
0x3b3b3b3b3b4e3b3b3b3b3b4c3b303b6f4c3b4f542053434942414c4c5953204e414944414e41433b30353431,
0x3b3b3b3b3b4e3b3b3b3b3b4c3b303b6f4c3b4f4f542053434942414c4c5953204e414944414e41433b31353431,
0x3b3b3b3b3b4e3b3b3b3b3b4c3b303b6f4c3b4f4f5420454552432d592053434942414c4c5953204e414944414e41433b32353431,
0x3b3b3b3b3b4e3b3b3b3b3b4c3b303b6f4c3b45454420524549525241432053434942414c4c5953204e414944414e41433b33353431,
0x3b3b3b3b3b4e3b3b3b3b3b4c3b303b6f4c3b494420524549525241432053434942414c4c5953204e414944414e41433b34353431,
0x3b3b3b3b3b4e3b3b3b3b3b4c3b303b6f4c3b41542053434942414c4c5953204e414944414e41433b35353431,
0x3b3b3b3b3b4e3b3b3b3b3b4c3b303b6f4c3b4141542053434942414c4c5953204e414944414e41433b36353431,
0x3b3b3b3b3b4e3b3b3b3b3b4c3b303b6f4c3b4557542053434942414c4c5953204e414944414e41433b37353431,
0x3b3b3b3b3b4e3b3b3b3b3b4c3b303b6f4c3b45575420454552432d545345572053434942414c4c5953204e414944414e41433b38353431,
0x3b3b3b3b3b4e3b3b3b3b3b4c3b303b6f4c3b4957542053434942414c4c5953204e414944414e41433b39353431,
0x3b3b3b3b3b4e3b3b3b3b3b4c3b303b6f4c3b49575420454552432d545345572053434942414c4c5953204e414944414e41433b41353431,
0x3b3b3b3b3b4e3b3b3b3b3b4c3b303b6f4c3b494957542053434942414c4c5953204e414944414e41433b42353431,
0x3b3b3b3b3b4e3b3b3b3b3b4c3b303b6f4c3b4949575420454552432d545345572053434942414c4c5953204e414944414e41433b43353431,
0x3b3b3b3b3b4e3b3b3b3b3b4c3b303b6f4c3b4f57542053434942414c4c5953204e414944414e41433b44353431,
0x3b3b3b3b3b4e3b3b3b3b3b4c3b303b6f4c3b4f575420454552432d545345572053434942414c4c5953204e414944414e41433b45353431,
0x3b3b3b3b3b4e3b3b3b3b3b4c3b303b6f4c3b4f4f57542053434942414c4c5953204e414944414e41433b46353431,
0x3b3b3b3b3b4e3b3b3b3b3b4c3b303b6f4c3b4f4f575420454552432d545345572053434942414c4c5953204e414944414e41433b30363431,
0x3b3b3b3b3b4e3b3b3b3b3b4c3b303b6f4c3b4157542053434942414c4c5953204e414944414e41433b31363431,
0x3b3b3b3b3b4e3b3b3b3b3b4c3b303b6f4c3b41575420454552432d545345572053434942414c4c5953204e414944414e41433b32363431,
0x3b3b3b3b3b4e3b3b3b3b3b4c3b303b6f4c3b414157542053434942414c4c5953204e414944414e41433b33363431,
0x3b3b3b3b3b4e3b3b3b3b3b4c3b303b6f4c3b4141575420454552432d545345572053434942414c4c5953204e414944414e41433b34363431,
0x3b3b3b3b3b4e3b3b3b3b3b4c3b303b6f4c3b41415754204950414b53414e2053434942414c4c5953204e414944414e41433b35363431,
0x3b3b3b3b3b4e3b3b3b3b3b4c3b303b6f4c3b542053434942414c4c5953204e414944414e41433b36363431,
0x3b3b3b3b3b4e3b3b3b3b3b4c3b303b6f4c3b4554542053434942414c4c5953204e414944414e41433b37363431,
0x3b3b3b3b3b4e3b3b3b3b3b4c3b303b6f4c3b4954542053434942414c4c5953204e414944414e41433b38363431,
0x3b3b3b3b3b4e3b3b3b3b3b4c3b303b6f4c3b4f54542053434942414c4c5953204e414944414e41433b39363431,
0x3b3b3b3b3b4e3b3b3b3b3b4c3b303b6f4c3b4154542053434942414c4c5953204e414944414e41433b41363431,
0x3b3b3b3b3b4e3b3b3b3b3b4c3b303b6f4c3b454b2053434942414c4c5953204e414944414e41433b42363431,
0x3b3b3b3b3b4e3b3b3b3b3b4c3b303b6f4c3b4941414b2053434942414c4c5953204e414944414e41433b43363431,
0x3b3b3b3b3b4e3b3b3b3b3b4c3b303b6f4c3b494b2053434942414c4c5953204e414944414e41433b44363431,
0x3b3b3b3b3b4e3b3b3b3b3b4c3b303b6f4c3b49494b2053434942414c4c5953204e414944414e41433b45363431,
0x3b3b3b3b3b4e3b3b3b3b3b4c3b303b6f4c3b4f4b2053434942414c4c5953204e414944414e41433b46363431,
0x3b3b3b3b3b4e3b3b3b3b3b4c3b303b6f4c3b4f4f4b2053434942414c4c5953204e414944414e41433b30373431,
0x3b3b3b3b3b4e3b3b3b3b3b4c3b303b6f4c3b4f4f4b20454552432d592053434942414c4c5953204e414944414e41433b31373431,
0x3b3b3b3b3b4e3b3b3b3b3b4c3b303b6f4c3b414b2053434942414c4c5953204e414944414e41433b32373431,
0x3b3b3b3b3b4e3b3b3b3b3b4c3b303b6f4c3b41414b2053434942414c4c5953204e414944414e41433b33373431,
0x3b3b3b3b3b4e3b3b3b3b3b4c3b303b6f4c3b45574b2053434942414c4c5953204e414944414e41433b34373431,
0x3b3b3b3b3b4e3b3b3b3b3b4c3b303b6f4c3b45574b20454552432d545345572053434942414c4c5953204e414944414e41433b35373431,
0x3b3b3b3b3b4e3b3b3b3b3b4c3b303b6f4c3b49574b2053434942414c4c5953204e414944414e41433b36373431,
0x3b3b3b3b3b4e3b3b3b3b3b4c3b303b6f4c3b49574b20454552432d545345572053434942414c4c5953204e414944414e41433b37373431,
0x3b3b3b3b3b4e3b3b3b3b3b4c3b303b6f4c3b4949574b2053434942414c4c5953204e414944414e41433b38373431,
0x3b3b3b3b3b4e3b3b3b3b3b4c3b303b6f4c3b4949574b20454552432d545345572053434942414c4c5953204e414944414e41433b39373431,
0x3b3b3b3b3b4e3b3b3b3b3b4c3b303b6f4c3b4f574b2053434942414c4c5953204e414944414e41433b41373431,
0x3b3b3b3b3b4e3b3b3b3b3b4c3b303b6f4c3b4f574b20454552432d545345572053434942414c4c5953204e414944414e41433b42373431,
0x3b3b3b3b3b4e3b3b3b3b3b4c3b303b6f4c3b4f4f574b2053434942414c4c5953204e414944414e41433b43373431,
0x3b3b3b3b3b4e3b3b3b3b3b4c3b303b6f4c3b4f4f574b20454552432d545345572053434942414c4c5953204e414944414e41433b44373431,
0x3b3b3b3b3b4e3b3b3b3b3b4c3b303b6f4c3b41574b2053434942414c4c5953204e414944414e41433b45373431,
0x3b3b3b3b3b4e3b3b3b3b3b4c3b303b6f4c3b41574b20454552432d545345572053434942414c4c5953204e414944414e41433b46373431,
0x3b3b3b3b3b4e3b3b3b3b3b4c3b303b6f4c3b4141574b2053434942414c4c5953204e414944414e41433b30383431,
0x3b3b3b3b3b4e3b3b3b3b3b4c3b303b6f4c3b4141574b20454552432d545345572053434942414c4c5953204e414944414e41433b31383431,
0x3b3b3b3b3b4e3b3b3b3b3b4c3b303b6f4c3b4141574b204950414b53414e2053434942414c4c5953204e414944414e41433b32383431,
0x3b3b3b3b3b4e3b3b3b3b3b4c3b303b6f4c3b4b2053434942414c4c5953204e414944414e41433b33383431,
0x3b3b3b3b3b4e3b3b3b3b3b4c3b303b6f4c3b574b2053434942414c4c5953204e414944414e41433b34383431,
0x3b3b3b3b3b4e3b3b3b3b3b4c3b303b6f4c3b48454b20594556414c532d4854554f532053434942414c4c5953204e414944414e41433b35383431,
0x3b3b3b3b3b4e3b3b3b3b3b4c3b303b6f4c3b48494b20594556414c532d4854554f532053434942414c4c5953204e414944414e41433b36383431,
0x3b3b3b3b3b4e3b3b3b3b3b4c3b303b6f4c3b484f4b20594556414c532d4854554f532053434942414c4c5953204e414944414e41433b37383431,
0x3b3b3b3b3b4e3b3b3b3b3b4c3b303b6f4c3b48414b20594556414c532d4854554f532053434942414c4c5953204e414944414e41433b38383431,
0x3b3b3b3b3b4e3b3b3b3b3b4c3b303b6f4c3b45432053434942414c4c5953204e414944414e41433b39383431,
0x3b3b3b3b3b4e3b3b3b3b3b4c3b303b6f4c3b494141432053434942414c4c5953204e414944414e41433b41383431,
0x3b3b3b3b3b4e3b3b3b3b3b4c3b303b6f4c3b49432053434942414c4c5953204e414944414e41433b42383431,
0x3b3b3b3b3b4e3b3b3b3b3b4c3b303b6f4c3b4949432053434942414c4c5953204e414944414e41433b43383431,
0x3b3b3b3b3b4e3b3b3b3b3b4c3b303b6f4c3b4f432053434942414c4c5953204e414944414e41433b44383431,
0x3b3b3b3b3b4e3b3b3b3b3b4c3b303b6f4c3b4f4f432053434942414c4c5953204e414944414e41433b45383431,
0x3b3b3b3b3b4e3b3b3b3b3b4c3b303b6f4c3b4f4f4320454552432d592053434942414c4c5953204e414944414e41433b46383431,
0x3b3b3b3b3b4e3b3b3b3b3b4c3b303b6f4c3b41432053434942414c4c5953204e414944414e41433b30393431,
0x3b3b3b3b3b4e3b3b3b3b3b4c3b303b6f4c3b4141432053434942414c4c5953204e414944414e41433b31393431,
0x3b3b3b3b3b4e3b3b3b3b3b4c3b303b6f4c3b4557432053434942414c4c5953204e414944414e41433b32393431,
0x3b3b3b3b3b4e3b3b3b3b3b4c3b303b6f4c3b45574320454552432d545345572053434942414c4c5953204e414944414e41433b33393431,
0x3b3b3b3b3b4e3b3b3b3b3b4c3b303b6f4c3b4957432053434942414c4c5953204e414944414e41433b34393431,
0x3b3b3b3b3b4e3b3b3b3b3b4c3b303b6f4c3b49574320454552432d545345572053434942414c4c5953204e414944414e41433b35393431,
0x3b3b3b3b3b4e3b3b3b3b3b4c3b303b6f4c3b494957432053434942414c4c5953204e414944414e41433b36393431,
0x3b3b3b3b3b4e3b3b3b3b3b4c3b303b6f4c3b4949574320454552432d545345572053434942414c4c5953204e414944414e41433b37393431,
0x3b3b3b3b3b4e3b3b3b3b3b4c3b303b6f4c3b4f57432053434942414c4c5953204e414944414e41433b38393431,
0x3b3b3b3b3b4e3b3b3b3b3b4c3b303b6f4c3b4f574320454552432d545345572053434942414c4c5953204e414944414e41433b39393431,
0x3b3b3b3b3b4e3b3b3b3b3b4c3b303b6f4c3b4f4f57432053434942414c4c5953204e414944414e41433b41393431,
0x3b3b3b3b3b4e3b3b3b3b3b4c3b303b6f4c3b4f4f574320454552432d545345572053434942414c4c5953204e414944414e41433b42393431,
0x3b3b3b3b3b4e3b3b3b3b3b4c3b303b6f4c3b4157432053434942414c4c5953204e414944414e41433b43393431,
0x3b3b3b3b3b4e3b3b3b3b3b4c3b303b6f4c3b41574320454552432d545345572053434942414c4c5953204e414944414e41433b44393431,
0x3b3b3b3b3b4e3b3b3b3b3b4c3b303b6f4c3b414157432053434942414c4c5953204e414944414e41433b45393431,
0x3b3b3b3b3b4e3b3b3b3b3b4c3b303b6f4c3b4141574320454552432d545345572053434942414c4c5953204e414944414e41433b46393431,
0x3b3b3b3b3b4e3b3b3b3b3b4c3b303b6f4c3b41415743204950414b53414e2053434942414c4c5953204e414944414e41433b30413431,
0x3b3b3b3b3b4e3b3b3b3b3b4c3b303b6f4c3b432053434942414c4c5953204e414944414e41433b31413431,
0x3b3b3b3b3b4e3b3b3b3b3b4c3b303b6f4c3b4854204953495941532053434942414c4c5953204e414944414e41433b32413431,
0x3b3b3b3b3b4e3b3b3b3b3b4c3b303b6f4c3b454d2053434942414c4c5953204e414944414e41433b33413431,
0x3b3b3b3b3b4e3b3b3b3b3b4c3b303b6f4c3b4941414d2053434942414c4c5953204e414944414e41433b34413431,
0x3b3b3b3b3b4e3b3b3b3b3b4c3b303b6f4c3b494d2053434942414c4c5953204e414944414e41433b35413431,
0x3b3b3b3b3b4e3b3b3b3b3b4c3b303b6f4c3b49494d2053434942414c4c5953204e414944414e41433b36413431,
0x3b3b3b3b3b4e3b3b3b3b3b4c3b303b6f4c3b4f4d2053434942414c4c5953204e414944414e41433b37413431,
0x3b3b3b3b3b4e3b3b3b3b3b4c3b303b6f4c3b4f4f4d2053434942414c4c5953204e414944414e41433b38413431,
0x3b3b3b3b3b4e3b3b3b3b3b4c3b303b6f4c3b4f4f4d20454552432d592053434942414c4c5953204e414944414e41433b39413431,
0x3b3b3b3b3b4e3b3b3b3b3b4c3b303b6f4c3b414d2053434942414c4c5953204e414944414e41433b41413431,
0x3b3b3b3b3b4e3b3b3b3b3b4c3b303b6f4c3b41414d2053434942414c4c5953204e414944414e41433b42413431,
0x3b3b3b3b3b4e3b3b3b3b3b4c3b303b6f4c3b45574d2053434942414c4c5953204e414944414e41433b43413431,
0x3b3b3b3b3b4e3b3b3b3b3b4c3b303b6f4c3b45574d20454552432d545345572053434942414c4c5953204e414944414e41433b44413431,
0x3b3b3b3b3b4e3b3b3b3b3b4c3b303b6f4c3b49574d2053434942414c4c5953204e414944414e41433b45413431,
0x3b3b3b3b3b4e3b3b3b3b3b4c3b303b6f4c3b49574d20454552432d545345572053434942414c4c5953204e414944414e41433b46413431,
0x3b3b3b3b3b4e3b3b3b3b3b4c3b303b6f4c3b4949574d2053434942414c4c5953204e414944414e41433b30423431,
0x3b3b3b3b3b4e3b3b3b3b3b4c3b303b6f4c3b4949574d20454552432d545345572053434942414c4c5953204e414944414e41433b31423431,
0x3b3b3b3b3b4e3b3b3b3b3b4c3b303b6f4c3b4f574d2053434942414c4c5953204e414944414e41433b32423431,
0x3b3b3b3b3b4e3b3b3b3b3b4c3b303b6f4c3b4f574d20454552432d545345572053434942414c4c5953204e414944414e41433b33423431,
0x3b3b3b3b3b4e3b3b3b3b3b4c3b303b6f4c3b4f4f574d2053434942414c4c5953204e414944414e41433b34423431]

/-- src/u5e/props/UnicodeData.txt lines 4609-4864. -/
def rawUcd18 : List Nat := [
0x3b3b3b3b3b4e3b3b3b3b3b4c3b303b6f4c3b4f4f574d20454552432d545345572053434942414c4c5953204e414944414e41433b35423431,
0x3b3b3b3b3b4e3b3b3b3b3b4c3b303b6f4c3b41574d2053434942414c4c5953204e414944414e41433b36423431,
0x3b3b3b3b3b4e3b3b3b3b3b4c3b303b6f4c3b41574d20454552432d545345572053434942414c4c5953204e414944414e41433b37423431,
0x3b3b3b3b3b4e3b3b3b3b3b4c3b303b6f4c3b4141574d2053434942414c4c5953204e414944414e41433b38423431,
0x3b3b3b3b3b4e3b3b3b3b3b4c3b303b6f4c3b4141574d20454552432d545345572053434942414c4c5953204e414944414e41433b39423431,
0x3b3b3b3b3b4e3b3b3b3b3b4c3b303b6f4c3b4141574d204950414b53414e2053434942414c4c5953204e414944414e41433b41423431,
0x3b3b3b3b3b4e3b3b3b3b3b4c3b303b6f4c3b4d2053434942414c4c5953204e414944414e41433b42423431,
0x3b3b3b3b3b4e3b3b3b3b3b4c3b303b6f4c3b4d20454552432d545345572053434942414c4c5953204e414944414e41433b43423431,
0x3b3b3b3b3b4e3b3b3b3b3b4c3b303b6f4c3b484d2053434942414c4c5953204e414944414e41433b44423431,
0x3b3b3b3b3b4e3b3b3b3b3b4c3b303b6f4c3b4d204e4143534150414854412053434942414c4c5953204e414944414e41433b45423431,
0x3b3b3b3b3b4e3b3b3b3b3b4c3b303b6f4c3b4d204953495941532053434942414c4c5953204e414944414e41433b46423431,
0x3b3b3b3b3b4e3b3b3b3b3b4c3b303b6f4c3b454e2053434942414c4c5953204e414944414e41433b30433431,
0x3b3b3b3b3b4e3b3b3b3b3b4c3b303b6f4c3b4941414e2053434942414c4c5953204e414944414e41433b31433431,
0x3b3b3b3b3b4e3b3b3b3b3b4c3b303b6f4c3b494e2053434942414c4c5953204e414944414e41433b32433431,
0x3b3b3b3b3b4e3b3b3b3b3b4c3b303b6f4c3b49494e2053434942414c4c5953204e414944414e41433b33433431,
0x3b3b3b3b3b4e3b3b3b3b3b4c3b303b6f4c3b4f4e2053434942414c4c5953204e414944414e41433b34433431,
0x3b3b3b3b3b4e3b3b3b3b3b4c3b303b6f4c3b4f4f4e2053434942414c4c5953204e414944414e41433b35433431,
0x3b3b3b3b3b4e3b3b3b3b3b4c3b303b6f4c3b4f4f4e20454552432d592053434942414c4c5953204e414944414e41433b36433431,
0x3b3b3b3b3b4e3b3b3b3b3b4c3b303b6f4c3b414e2053434942414c4c5953204e414944414e41433b37433431,
0x3b3b3b3b3b4e3b3b3b3b3b4c3b303b6f4c3b41414e2053434942414c4c5953204e414944414e41433b38433431,
0x3b3b3b3b3b4e3b3b3b3b3b4c3b303b6f4c3b45574e2053434942414c4c5953204e414944414e41433b39433431,
0x3b3b3b3b3b4e3b3b3b3b3b4c3b303b6f4c3b45574e20454552432d545345572053434942414c4c5953204e414944414e41433b41433431,
0x3b3b3b3b3b4e3b3b3b3b3b4c3b303b6f4c3b41574e2053434942414c4c5953204e414944414e41433b42433431,
0x3b3b3b3b3b4e3b3b3b3b3b4c3b303b6f4c3b41574e20454552432d545345572053434942414c4c5953204e414944414e41433b43433431,
0x3b3b3b3b3b4e3b3b3b3b3b4c3b303b6f4c3b4141574e2053434942414c4c5953204e414944414e41433b44433431,
0x3b3b3b3b3b4e3b3b3b3b3b4c3b303b6f4c3b4141574e20454552432d545345572053434942414c4c5953204e414944414e41433b45433431,
0x3b3b3b3b3b4e3b3b3b3b3b4c3b303b6f4c3b4141574e204950414b53414e2053434942414c4c5953204e414944414e41433b46433431,
0x3b3b3b3b3b4e3b3b3b3b3b4c3b303b6f4c3b4e2053434942414c4c5953204e414944414e41433b30443431,
0x3b3b3b3b3b4e3b3b3b3b3b4c3b303b6f4c3b474e20524549525241432053434942414c4c5953204e414944414e41433b31443431,
0x3b3b3b3b3b4e3b3b3b3b3b4c3b303b6f4c3b484e2053434942414c4c5953204e414944414e41433b32443431,
0x3b3b3b3b3b4e3b3b3b3b3b4c3b303b6f4c3b454c2053434942414c4c5953204e414944414e41433b33443431,
0x3b3b3b3b3b4e3b3b3b3b3b4c3b303b6f4c3b4941414c2053434942414c4c5953204e414944414e41433b34443431,
0x3b3b3b3b3b4e3b3b3b3b3b4c3b303b6f4c3b494c2053434942414c4c5953204e414944414e41433b35443431,
0x3b3b3b3b3b4e3b3b3b3b3b4c3b303b6f4c3b49494c2053434942414c4c5953204e414944414e41433b36443431,
0x3b3b3b3b3b4e3b3b3b3b3b4c3b303b6f4c3b4f4c2053434942414c4c5953204e414944414e41433b37443431,
0x3b3b3b3b3b4e3b3b3b3b3b4c3b303b6f4c3b4f4f4c2053434942414c4c5953204e414944414e41433b38443431,
0x3b3b3b3b3b4e3b3b3b3b3b4c3b303b6f4c3b4f4f4c20454552432d592053434942414c4c5953204e414944414e41433b39443431,
0x3b3b3b3b3b4e3b3b3b3b3b4c3b303b6f4c3b414c2053434942414c4c5953204e414944414e41433b41443431,
0x3b3b3b3b3b4e3b3b3b3b3b4c3b303b6f4c3b41414c2053434942414c4c5953204e414944414e41433b42443431,
0x3b3b3b3b3b4e3b3b3b3b3b4c3b303b6f4c3b45574c2053434942414c4c5953204e414944414e41433b43443431,
0x3b3b3b3b3b4e3b3b3b3b3b4c3b303b6f4c3b45574c20454552432d545345572053434942414c4c5953204e414944414e41433b44443431,
0x3b3b3b3b3b4e3b3b3b3b3b4c3b303b6f4c3b49574c2053434942414c4c5953204e414944414e41433b45443431,
0x3b3b3b3b3b4e3b3b3b3b3b4c3b303b6f4c3b49574c20454552432d545345572053434942414c4c5953204e414944414e41433b46443431,
0x3b3b3b3b3b4e3b3b3b3b3b4c3b303b6f4c3b4949574c2053434942414c4c5953204e414944414e41433b30453431,
0x3b3b3b3b3b4e3b3b3b3b3b4c3b303b6f4c3b4949574c20454552432d545345572053434942414c4c5953204e414944414e41433b31453431,
0x3b3b3b3b3b4e3b3b3b3b3b4c3b303b6f4c3b4f574c2053434942414c4c5953204e414944414e41433b32453431,
0x3b3b3b3b3b4e3b3b3b3b3b4c3b303b6f4c3b4f574c20454552432d545345572053434942414c4c5953204e414944414e41433b33453431,
0x3b3b3b3b3b4e3b3b3b3b3b4c3b303b6f4c3b4f4f574c2053434942414c4c5953204e414944414e41433b34453431,
0x3b3b3b3b3b4e3b3b3b3b3b4c3b303b6f4c3b4f4f574c20454552432d545345572053434942414c4c5953204e414944414e41433b35453431,
0x3b3b3b3b3b4e3b3b3b3b3b4c3b303b6f4c3b41574c2053434942414c4c5953204e414944414e41433b36453431,
0x3b3b3b3b3b4e3b3b3b3b3b4c3b303b6f4c3b41574c20454552432d545345572053434942414c4c5953204e414944414e41433b37453431,
0x3b3b3b3b3b4e3b3b3b3b3b4c3b303b6f4c3b4141574c2053434942414c4c5953204e414944414e41433b38453431,
0x3b3b3b3b3b4e3b3b3b3b3b4c3b303b6f4c3b4141574c20454552432d545345572053434942414c4c5953204e414944414e41433b39453431,
0x3b3b3b3b3b4e3b3b3b3b3b4c3b303b6f4c3b4c2053434942414c4c5953204e414944414e41433b41453431,
0x3b3b3b3b3b4e3b3b3b3b3b4c3b303b6f4c3b4c20454552432d545345572053434942414c4c5953204e414944414e41433b42453431,
0x3b3b3b3b3b4e3b3b3b3b3b4c3b303b6f4c3b4c204c414944454d2053434942414c4c5953204e414944414e41433b43453431,
0x3b3b3b3b3b4e3b3b3b3b3b4c3b303b6f4c3b45532053434942414c4c5953204e414944414e41433b44453431,
0x3b3b3b3b3b4e3b3b3b3b3b4c3b303b6f4c3b494141532053434942414c4c5953204e414944414e41433b45453431,
0x3b3b3b3b3b4e3b3b3b3b3b4c3b303b6f4c3b49532053434942414c4c5953204e414944414e41433b46453431,
0x3b3b3b3b3b4e3b3b3b3b3b4c3b303b6f4c3b4949532053434942414c4c5953204e414944414e41433b30463431,
0x3b3b3b3b3b4e3b3b3b3b3b4c3b303b6f4c3b4f532053434942414c4c5953204e414944414e41433b31463431,
0x3b3b3b3b3b4e3b3b3b3b3b4c3b303b6f4c3b4f4f532053434942414c4c5953204e414944414e41433b32463431,
0x3b3b3b3b3b4e3b3b3b3b3b4c3b303b6f4c3b4f4f5320454552432d592053434942414c4c5953204e414944414e41433b33463431,
0x3b3b3b3b3b4e3b3b3b3b3b4c3b303b6f4c3b41532053434942414c4c5953204e414944414e41433b34463431,
0x3b3b3b3b3b4e3b3b3b3b3b4c3b303b6f4c3b4141532053434942414c4c5953204e414944414e41433b35463431,
0x3b3b3b3b3b4e3b3b3b3b3b4c3b303b6f4c3b4557532053434942414c4c5953204e414944414e41433b36463431,
0x3b3b3b3b3b4e3b3b3b3b3b4c3b303b6f4c3b45575320454552432d545345572053434942414c4c5953204e414944414e41433b37463431,
0x3b3b3b3b3b4e3b3b3b3b3b4c3b303b6f4c3b4957532053434942414c4c5953204e414944414e41433b38463431,
0x3b3b3b3b3b4e3b3b3b3b3b4c3b303b6f4c3b49575320454552432d545345572053434942414c4c5953204e414944414e41433b39463431,
0x3b3b3b3b3b4e3b3b3b3b3b4c3b303b6f4c3b494957532053434942414c4c5953204e414944414e41433b41463431,
0x3b3b3b3b3b4e3b3b3b3b3b4c3b303b6f4c3b4949575320454552432d545345572053434942414c4c5953204e414944414e41433b42463431,
0x3b3b3b3b3b4e3b3b3b3b3b4c3b303b6f4c3b4f57532053434942414c4c5953204e414944414e41433b43463431,
0x3b3b3b3b3b4e3b3b3b3b3b4c3b303b6f4c3b4f575320454552432d545345572053434942414c4c5953204e414944414e41433b44463431,
0x3b3b3b3b3b4e3b3b3b3b3b4c3b303b6f4c3b4f4f57532053434942414c4c5953204e414944414e41433b45463431,
0x3b3b3b3b3b4e3b3b3b3b3b4c3b303b6f4c3b4f4f575320454552432d545345572053434942414c4c5953204e414944414e41433b46463431,
0x3b3b3b3b3b4e3b3b3b3b3b4c3b303b6f4c3b4157532053434942414c4c5953204e414944414e41433b30303531,
0x3b3b3b3b3b4e3b3b3b3b3b4c3b303b6f4c3b41575320454552432d545345572053434942414c4c5953204e414944414e41433b31303531,
0x3b3b3b3b3b4e3b3b3b3b3b4c3b303b6f4c3b414157532053434942414c4c5953204e414944414e41433b32303531,
0x3b3b3b3b3b4e3b3b3b3b3b4c3b303b6f4c3b4141575320454552432d545345572053434942414c4c5953204e414944414e41433b33303531,
0x3b3b3b3b3b4e3b3b3b3b3b4c3b303b6f4c3b41415753204950414b53414e2053434942414c4c5953204e414944414e41433b34303531,
0x3b3b3b3b3b4e3b3b3b3b3b4c3b303b6f4c3b532053434942414c4c5953204e414944414e41433b35303531,
0x3b3b3b3b3b4e3b3b3b3b3b4c3b303b6f4c3b53204e4143534150414854412053434942414c4c5953204e414944414e41433b36303531,
0x3b3b3b3b3b4e3b3b3b3b3b4c3b303b6f4c3b57532053434942414c4c5953204e414944414e41433b37303531,
0x3b3b3b3b3b4e3b3b3b3b3b4c3b303b6f4c3b5320544f4f464b43414c422053434942414c4c5953204e414944414e41433b38303531,
0x3b3b3b3b3b4e3b3b3b3b3b4c3b303b6f4c3b4b5320454552432d45534f4f4d2053434942414c4c5953204e414944414e41433b39303531,
0x3b3b3b3b3b4e3b3b3b3b3b4c3b303b6f4c3b574b53204950414b53414e2053434942414c4c5953204e414944414e41433b41303531,
0x3b3b3b3b3b4e3b3b3b3b3b4c3b303b6f4c3b572d53204950414b53414e2053434942414c4c5953204e414944414e41433b42303531,
0x3b3b3b3b3b4e3b3b3b3b3b4c3b303b6f4c3b41575053204950414b53414e2053434942414c4c5953204e414944414e41433b43303531,
0x3b3b3b3b3b4e3b3b3b3b3b4c3b303b6f4c3b41575453204950414b53414e2053434942414c4c5953204e414944414e41433b44303531,
0x3b3b3b3b3b4e3b3b3b3b3b4c3b303b6f4c3b41574b53204950414b53414e2053434942414c4c5953204e414944414e41433b45303531,
0x3b3b3b3b3b4e3b3b3b3b3b4c3b303b6f4c3b41574353204950414b53414e2053434942414c4c5953204e414944414e41433b46303531,
0x3b3b3b3b3b4e3b3b3b3b3b4c3b303b6f4c3b4548532053434942414c4c5953204e414944414e41433b30313531,
0x3b3b3b3b3b4e3b3b3b3b3b4c3b303b6f4c3b4948532053434942414c4c5953204e414944414e41433b31313531,
0x3b3b3b3b3b4e3b3b3b3b3b4c3b303b6f4c3b494948532053434942414c4c5953204e414944414e41433b32313531,
0x3b3b3b3b3b4e3b3b3b3b3b4c3b303b6f4c3b4f48532053434942414c4c5953204e414944414e41433b33313531,
0x3b3b3b3b3b4e3b3b3b3b3b4c3b303b6f4c3b4f4f48532053434942414c4c5953204e414944414e41433b34313531,
0x3b3b3b3b3b4e3b3b3b3b3b4c3b303b6f4c3b4148532053434942414c4c5953204e414944414e41433b35313531,
0x3b3b3b3b3b4e3b3b3b3b3b4c3b303b6f4c3b414148532053434942414c4c5953204e414944414e41433b36313531,
0x3b3b3b3b3b4e3b3b3b3b3b4c3b303b6f4c3b455748532053434942414c4c5953204e414944414e41433b37313531,
0x3b3b3b3b3b4e3b3b3b3b3b4c3b303b6f4c3b4557485320454552432d545345572053434942414c4c5953204e414944414e41433b38313531,
0x3b3b3b3b3b4e3b3b3b3b3b4c3b303b6f4c3b495748532053434942414c4c5953204e414944414e41433b39313531,
0x3b3b3b3b3b4e3b3b3b3b3b4c3b303b6f4c3b4957485320454552432d545345572053434942414c4c5953204e414944414e41433b41313531,
0x3b3b3b3b3b4e3b3b3b3b3b4c3b303b6f4c3b49495748532053434942414c4c5953204e414944414e41433b42313531,
0x3b3b3b3b3b4e3b3b3b3b3b4c3b303b6f4c3b494957485320454552432d545345572053434942414c4c5953204e414944414e41433b43313531,
0x3b3b3b3b3b4e3b3b3b3b3b4c3b303b6f4c3b4f5748532053434942414c4c5953204e414944414e41433b44313531,
0x3b3b3b3b3b4e3b3b3b3b3b4c3b303b6f4c3b4f57485320454552432d545345572053434942414c4c5953204e414944414e41433b45313531,
0x3b3b3b3b3b4e3b3b3b3b3b4c3b303b6f4c3b4f4f5748532053434942414c4c5953204e414944414e41433b46313531,
0x3b3b3b3b3b4e3b3b3b3b3b4c3b303b6f4c3b4f4f57485320454552432d545345572053434942414c4c5953204e414944414e41433b30323531,
0x3b3b3b3b3b4e3b3b3b3b3b4c3b303b6f4c3b415748532053434942414c4c5953204e414944414e41433b31323531,
0x3b3b3b3b3b4e3b3b3b3b3b4c3b303b6f4c3b4157485320454552432d545345572053434942414c4c5953204e414944414e41433b32323531,
0x3b3b3b3b3b4e3b3b3b3b3b4c3b303b6f4c3b41415748532053434942414c4c5953204e414944414e41433b33323531,
0x3b3b3b3b3b4e3b3b3b3b3b4c3b303b6f4c3b414157485320454552432d545345572053434942414c4c5953204e414944414e41433b34323531,
0x3b3b3b3b3b4e3b3b3b3b3b4c3b303b6f4c3b48532053434942414c4c5953204e414944414e41433b35323531,
0x3b3b3b3b3b4e3b3b3b3b3b4c3b303b6f4c3b45592053434942414c4c5953204e414944414e41433b36323531,
0x3b3b3b3b3b4e3b3b3b3b3b4c3b303b6f4c3b494141592053434942414c4c5953204e414944414e41433b37323531,
0x3b3b3b3b3b4e3b3b3b3b3b4c3b303b6f4c3b49592053434942414c4c5953204e414944414e41433b38323531,
0x3b3b3b3b3b4e3b3b3b3b3b4c3b303b6f4c3b4949592053434942414c4c5953204e414944414e41433b39323531,
0x3b3b3b3b3b4e3b3b3b3b3b4c3b303b6f4c3b4f592053434942414c4c5953204e414944414e41433b41323531,
0x3b3b3b3b3b4e3b3b3b3b3b4c3b303b6f4c3b4f4f592053434942414c4c5953204e414944414e41433b42323531,
0x3b3b3b3b3b4e3b3b3b3b3b4c3b303b6f4c3b4f4f5920454552432d592053434942414c4c5953204e414944414e41433b43323531,
0x3b3b3b3b3b4e3b3b3b3b3b4c3b303b6f4c3b41592053434942414c4c5953204e414944414e41433b44323531,
0x3b3b3b3b3b4e3b3b3b3b3b4c3b303b6f4c3b4141592053434942414c4c5953204e414944414e41433b45323531,
0x3b3b3b3b3b4e3b3b3b3b3b4c3b303b6f4c3b4557592053434942414c4c5953204e414944414e41433b46323531,
0x3b3b3b3b3b4e3b3b3b3b3b4c3b303b6f4c3b45575920454552432d545345572053434942414c4c5953204e414944414e41433b30333531,
0x3b3b3b3b3b4e3b3b3b3b3b4c3b303b6f4c3b4957592053434942414c4c5953204e414944414e41433b31333531,
0x3b3b3b3b3b4e3b3b3b3b3b4c3b303b6f4c3b49575920454552432d545345572053434942414c4c5953204e414944414e41433b32333531,
0x3b3b3b3b3b4e3b3b3b3b3b4c3b303b6f4c3b494957592053434942414c4c5953204e414944414e41433b33333531,
0x3b3b3b3b3b4e3b3b3b3b3b4c3b303b6f4c3b4949575920454552432d545345572053434942414c4c5953204e414944414e41433b34333531,
0x3b3b3b3b3b4e3b3b3b3b3b4c3b303b6f4c3b4f57592053434942414c4c5953204e414944414e41433b35333531,
0x3b3b3b3b3b4e3b3b3b3b3b4c3b303b6f4c3b4f575920454552432d545345572053434942414c4c5953204e414944414e41433b36333531,
0x3b3b3b3b3b4e3b3b3b3b3b4c3b303b6f4c3b4f4f57592053434942414c4c5953204e414944414e41433b37333531,
0x3b3b3b3b3b4e3b3b3b3b3b4c3b303b6f4c3b4f4f575920454552432d545345572053434942414c4c5953204e414944414e41433b38333531,
0x3b3b3b3b3b4e3b3b3b3b3b4c3b303b6f4c3b4157592053434942414c4c5953204e414944414e41433b39333531,
0x3b3b3b3b3b4e3b3b3b3b3b4c3b303b6f4c3b41575920454552432d545345572053434942414c4c5953204e414944414e41433b41333531,
0x3b3b3b3b3b4e3b3b3b3b3b4c3b303b6f4c3b414157592053434942414c4c5953204e414944414e41433b42333531,
0x3b3b3b3b3b4e3b3b3b3b3b4c3b303b6f4c3b4141575920454552432d545345572053434942414c4c5953204e414944414e41433b43333531,
0x3b3b3b3b3b4e3b3b3b3b3b4c3b303b6f4c3b41415759204950414b53414e2053434942414c4c5953204e414944414e41433b44333531,
0x3b3b3b3b3b4e3b3b3b3b3b4c3b303b6f4c3b592053434942414c4c5953204e414944414e41433b45333531,
0x3b3b3b3b3b4e3b3b3b3b3b4c3b303b6f4c3b5920454552432d454c4249422053434942414c4c5953204e414944414e41433b46333531,
0x3b3b3b3b3b4e3b3b3b3b3b4c3b303b6f4c3b5920454552432d545345572053434942414c4c5953204e414944414e41433b30343531,
0x3b3b3b3b3b4e3b3b3b3b3b4c3b303b6f4c3b4959204953495941532053434942414c4c5953204e414944414e41433b31343531,
0x3b3b3b3b3b4e3b3b3b3b3b4c3b303b6f4c3b45522053434942414c4c5953204e414944414e41433b32343531,
0x3b3b3b3b3b4e3b3b3b3b3b4c3b303b6f4c3b455220454552432d522053434942414c4c5953204e414944414e41433b33343531,
0x3b3b3b3b3b4e3b3b3b3b3b4c3b303b6f4c3b454c20454552432d545345572053434942414c4c5953204e414944414e41433b34343531,
0x3b3b3b3b3b4e3b3b3b3b3b4c3b303b6f4c3b494141522053434942414c4c5953204e414944414e41433b35343531,
0x3b3b3b3b3b4e3b3b3b3b3b4c3b303b6f4c3b49522053434942414c4c5953204e414944414e41433b36343531,
0x3b3b3b3b3b4e3b3b3b3b3b4c3b303b6f4c3b4949522053434942414c4c5953204e414944414e41433b37343531,
0x3b3b3b3b3b4e3b3b3b3b3b4c3b303b6f4c3b4f522053434942414c4c5953204e414944414e41433b38343531,
0x3b3b3b3b3b4e3b3b3b3b3b4c3b303b6f4c3b4f4f522053434942414c4c5953204e414944414e41433b39343531,
0x3b3b3b3b3b4e3b3b3b3b3b4c3b303b6f4c3b4f4c20454552432d545345572053434942414c4c5953204e414944414e41433b41343531,
0x3b3b3b3b3b4e3b3b3b3b3b4c3b303b6f4c3b41522053434942414c4c5953204e414944414e41433b42343531,
0x3b3b3b3b3b4e3b3b3b3b3b4c3b303b6f4c3b4141522053434942414c4c5953204e414944414e41433b43343531,
0x3b3b3b3b3b4e3b3b3b3b3b4c3b303b6f4c3b414c20454552432d545345572053434942414c4c5953204e414944414e41433b44343531,
0x3b3b3b3b3b4e3b3b3b3b3b4c3b303b6f4c3b414157522053434942414c4c5953204e414944414e41433b45343531,
0x3b3b3b3b3b4e3b3b3b3b3b4c3b303b6f4c3b4141575220454552432d545345572053434942414c4c5953204e414944414e41433b46343531,
0x3b3b3b3b3b4e3b3b3b3b3b4c3b303b6f4c3b522053434942414c4c5953204e414944414e41433b30353531,
0x3b3b3b3b3b4e3b3b3b3b3b4c3b303b6f4c3b5220454552432d545345572053434942414c4c5953204e414944414e41433b31353531,
0x3b3b3b3b3b4e3b3b3b3b3b4c3b303b6f4c3b52204c414944454d2053434942414c4c5953204e414944414e41433b32353531,
0x3b3b3b3b3b4e3b3b3b3b3b4c3b303b6f4c3b45462053434942414c4c5953204e414944414e41433b33353531,
0x3b3b3b3b3b4e3b3b3b3b3b4c3b303b6f4c3b494141462053434942414c4c5953204e414944414e41433b34353531,
0x3b3b3b3b3b4e3b3b3b3b3b4c3b303b6f4c3b49462053434942414c4c5953204e414944414e41433b35353531,
0x3b3b3b3b3b4e3b3b3b3b3b4c3b303b6f4c3b4949462053434942414c4c5953204e414944414e41433b36353531,
0x3b3b3b3b3b4e3b3b3b3b3b4c3b303b6f4c3b4f462053434942414c4c5953204e414944414e41433b37353531,
0x3b3b3b3b3b4e3b3b3b3b3b4c3b303b6f4c3b4f4f462053434942414c4c5953204e414944414e41433b38353531,
0x3b3b3b3b3b4e3b3b3b3b3b4c3b303b6f4c3b41462053434942414c4c5953204e414944414e41433b39353531,
0x3b3b3b3b3b4e3b3b3b3b3b4c3b303b6f4c3b4141462053434942414c4c5953204e414944414e41433b41353531,
0x3b3b3b3b3b4e3b3b3b3b3b4c3b303b6f4c3b414157462053434942414c4c5953204e414944414e41433b42353531,
0x3b3b3b3b3b4e3b3b3b3b3b4c3b303b6f4c3b4141574620454552432d545345572053434942414c4c5953204e414944414e41433b43353531,
0x3b3b3b3b3b4e3b3b3b3b3b4c3b303b6f4c3b462053434942414c4c5953204e414944414e41433b44353531,
0x3b3b3b3b3b4e3b3b3b3b3b4c3b303b6f4c3b4548542053434942414c4c5953204e414944414e41433b45353531,
0x3b3b3b3b3b4e3b3b3b3b3b4c3b303b6f4c3b45485420454552432d4e2053434942414c4c5953204e414944414e41433b46353531,
0x3b3b3b3b3b4e3b3b3b3b3b4c3b303b6f4c3b4948542053434942414c4c5953204e414944414e41433b30363531,
0x3b3b3b3b3b4e3b3b3b3b3b4c3b303b6f4c3b49485420454552432d4e2053434942414c4c5953204e414944414e41433b31363531,
0x3b3b3b3b3b4e3b3b3b3b3b4c3b303b6f4c3b494948542053434942414c4c5953204e414944414e41433b32363531,
0x3b3b3b3b3b4e3b3b3b3b3b4c3b303b6f4c3b4949485420454552432d4e2053434942414c4c5953204e414944414e41433b33363531,
0x3b3b3b3b3b4e3b3b3b3b3b4c3b303b6f4c3b4f48542053434942414c4c5953204e414944414e41433b34363531,
0x3b3b3b3b3b4e3b3b3b3b3b4c3b303b6f4c3b4f4f48542053434942414c4c5953204e414944414e41433b35363531,
0x3b3b3b3b3b4e3b3b3b3b3b4c3b303b6f4c3b4148542053434942414c4c5953204e414944414e41433b36363531,
0x3b3b3b3b3b4e3b3b3b3b3b4c3b303b6f4c3b414148542053434942414c4c5953204e414944414e41433b37363531,
0x3b3b3b3b3b4e3b3b3b3b3b4c3b303b6f4c3b41415748542053434942414c4c5953204e414944414e41433b38363531,
0x3b3b3b3b3b4e3b3b3b3b3b4c3b303b6f4c3b414157485420454552432d545345572053434942414c4c5953204e414944414e41433b39363531,
0x3b3b3b3b3b4e3b3b3b3b3b4c3b303b6f4c3b48542053434942414c4c5953204e414944414e41433b41363531,
0x3b3b3b3b3b4e3b3b3b3b3b4c3b303b6f4c3b454854542053434942414c4c5953204e414944414e41433b42363531,
0x3b3b3b3b3b4e3b3b3b3b3b4c3b303b6f4c3b494854542053434942414c4c5953204e414944414e41433b43363531,
0x3b3b3b3b3b4e3b3b3b3b3b4c3b303b6f4c3b4f4854542053434942414c4c5953204e414944414e41433b44363531,
0x3b3b3b3b3b4e3b3b3b3b3b4c3b303b6f4c3b414854542053434942414c4c5953204e414944414e41433b45363531,
0x3b3b3b3b3b4e3b3b3b3b3b4c3b303b6f4c3b4854542053434942414c4c5953204e414944414e41433b46363531,
0x3b3b3b3b3b4e3b3b3b3b3b4c3b303b6f4c3b4559542053434942414c4c5953204e414944414e41433b30373531,
0x3b3b3b3b3b4e3b3b3b3b3b4c3b303b6f4c3b4959542053434942414c4c5953204e414944414e41433b31373531,
0x3b3b3b3b3b4e3b3b3b3b3b4c3b303b6f4c3b4f59542053434942414c4c5953204e414944414e41433b32373531,
0x3b3b3b3b3b4e3b3b3b3b3b4c3b303b6f4c3b4159542053434942414c4c5953204e414944414e41433b33373531,
0x3b3b3b3b3b4e3b3b3b3b3b4c3b303b6f4c3b4548204b4956414e554e2053434942414c4c5953204e414944414e41433b34373531,
0x3b3b3b3b3b4e3b3b3b3b3b4c3b303b6f4c3b4948204b4956414e554e2053434942414c4c5953204e414944414e41433b35373531,
0x3b3b3b3b3b4e3b3b3b3b3b4c3b303b6f4c3b494948204b4956414e554e2053434942414c4c5953204e414944414e41433b36373531,
0x3b3b3b3b3b4e3b3b3b3b3b4c3b303b6f4c3b4f48204b4956414e554e2053434942414c4c5953204e414944414e41433b37373531,
0x3b3b3b3b3b4e3b3b3b3b3b4c3b303b6f4c3b4f4f48204b4956414e554e2053434942414c4c5953204e414944414e41433b38373531,
0x3b3b3b3b3b4e3b3b3b3b3b4c3b303b6f4c3b4148204b4956414e554e2053434942414c4c5953204e414944414e41433b39373531,
0x3b3b3b3b3b4e3b3b3b3b3b4c3b303b6f4c3b414148204b4956414e554e2053434942414c4c5953204e414944414e41433b41373531,
0x3b3b3b3b3b4e3b3b3b3b3b4c3b303b6f4c3b48204b4956414e554e2053434942414c4c5953204e414944414e41433b42373531,
0x3b3b3b3b3b4e3b3b3b3b3b4c3b303b6f4c3b4820545556414e554e2053434942414c4c5953204e414944414e41433b43373531,
0x3b3b3b3b3b4e3b3b3b3b3b4c3b303b6f4c3b4b482053434942414c4c5953204e414944414e41433b44373531,
0x3b3b3b3b3b4e3b3b3b3b3b4c3b303b6f4c3b494141512053434942414c4c5953204e414944414e41433b45373531,
0x3b3b3b3b3b4e3b3b3b3b3b4c3b303b6f4c3b49512053434942414c4c5953204e414944414e41433b46373531,
0x3b3b3b3b3b4e3b3b3b3b3b4c3b303b6f4c3b4949512053434942414c4c5953204e414944414e41433b30383531,
0x3b3b3b3b3b4e3b3b3b3b3b4c3b303b6f4c3b4f512053434942414c4c5953204e414944414e41433b31383531,
0x3b3b3b3b3b4e3b3b3b3b3b4c3b303b6f4c3b4f4f512053434942414c4c5953204e414944414e41433b32383531,
0x3b3b3b3b3b4e3b3b3b3b3b4c3b303b6f4c3b41512053434942414c4c5953204e414944414e41433b33383531,
0x3b3b3b3b3b4e3b3b3b3b3b4c3b303b6f4c3b4141512053434942414c4c5953204e414944414e41433b34383531,
0x3b3b3b3b3b4e3b3b3b3b3b4c3b303b6f4c3b512053434942414c4c5953204e414944414e41433b35383531,
0x3b3b3b3b3b4e3b3b3b3b3b4c3b303b6f4c3b45484c542053434942414c4c5953204e414944414e41433b36383531,
0x3b3b3b3b3b4e3b3b3b3b3b4c3b303b6f4c3b49484c542053434942414c4c5953204e414944414e41433b37383531,
0x3b3b3b3b3b4e3b3b3b3b3b4c3b303b6f4c3b4f484c542053434942414c4c5953204e414944414e41433b38383531,
0x3b3b3b3b3b4e3b3b3b3b3b4c3b303b6f4c3b41484c542053434942414c4c5953204e414944414e41433b39383531,
0x3b3b3b3b3b4e3b3b3b3b3b4c3b303b6f4c3b455220454552432d545345572053434942414c4c5953204e414944414e41433b41383531,
0x3b3b3b3b3b4e3b3b3b3b3b4c3b303b6f4c3b495220454552432d545345572053434942414c4c5953204e414944414e41433b42383531,
0x3b3b3b3b3b4e3b3b3b3b3b4c3b303b6f4c3b4f5220454552432d545345572053434942414c4c5953204e414944414e41433b43383531,
0x3b3b3b3b3b4e3b3b3b3b3b4c3b303b6f4c3b415220454552432d545345572053434942414c4c5953204e414944414e41433b44383531,
0x3b3b3b3b3b4e3b3b3b3b3b4c3b303b6f4c3b494141474e2053434942414c4c5953204e414944414e41433b45383531,
0x3b3b3b3b3b4e3b3b3b3b3b4c3b303b6f4c3b49474e2053434942414c4c5953204e414944414e41433b46383531,
0x3b3b3b3b3b4e3b3b3b3b3b4c3b303b6f4c3b4949474e2053434942414c4c5953204e414944414e41433b30393531,
0x3b3b3b3b3b4e3b3b3b3b3b4c3b303b6f4c3b4f474e2053434942414c4c5953204e414944414e41433b31393531,
0x3b3b3b3b3b4e3b3b3b3b3b4c3b303b6f4c3b4f4f474e2053434942414c4c5953204e414944414e41433b32393531,
0x3b3b3b3b3b4e3b3b3b3b3b4c3b303b6f4c3b41474e2053434942414c4c5953204e414944414e41433b33393531,
0x3b3b3b3b3b4e3b3b3b3b3b4c3b303b6f4c3b4141474e2053434942414c4c5953204e414944414e41433b34393531,
0x3b3b3b3b3b4e3b3b3b3b3b4c3b303b6f4c3b474e2053434942414c4c5953204e414944414e41433b35393531,
0x3b3b3b3b3b4e3b3b3b3b3b4c3b303b6f4c3b474e4e2053434942414c4c5953204e414944414e41433b36393531,
0x3b3b3b3b3b4e3b3b3b3b3b4c3b303b6f4c3b454853204953495941532053434942414c4c5953204e414944414e41433b37393531,
0x3b3b3b3b3b4e3b3b3b3b3b4c3b303b6f4c3b494853204953495941532053434942414c4c5953204e414944414e41433b38393531,
0x3b3b3b3b3b4e3b3b3b3b3b4c3b303b6f4c3b4f4853204953495941532053434942414c4c5953204e414944414e41433b39393531,
0x3b3b3b3b3b4e3b3b3b3b3b4c3b303b6f4c3b414853204953495941532053434942414c4c5953204e414944414e41433b41393531,
0x3b3b3b3b3b4e3b3b3b3b3b4c3b303b6f4c3b45485420454552432d53444f4f572053434942414c4c5953204e414944414e41433b42393531,
0x3b3b3b3b3b4e3b3b3b3b3b4c3b303b6f4c3b49485420454552432d53444f4f572053434942414c4c5953204e414944414e41433b43393531,
0x3b3b3b3b3b4e3b3b3b3b3b4c3b303b6f4c3b4f485420454552432d53444f4f572053434942414c4c5953204e414944414e41433b44393531,
0x3b3b3b3b3b4e3b3b3b3b3b4c3b303b6f4c3b41485420454552432d53444f4f572053434942414c4c5953204e414944414e41433b45393531,
0x3b3b3b3b3b4e3b3b3b3b3b4c3b303b6f4c3b485420454552432d53444f4f572053434942414c4c5953204e414944414e41433b46393531,
0x3b3b3b3b3b4e3b3b3b3b3b4c3b303b6f4c3b49484c2053434942414c4c5953204e414944414e41433b30413531,
0x3b3b3b3b3b4e3b3b3b3b3b4c3b303b6f4c3b4949484c2053434942414c4c5953204e414944414e41433b31413531,
0x3b3b3b3b3b4e3b3b3b3b3b4c3b303b6f4c3b4f484c2053434942414c4c5953204e414944414e41433b32413531,
0x3b3b3b3b3b4e3b3b3b3b3b4c3b303b6f4c3b4f4f484c2053434942414c4c5953204e414944414e41433b33413531,
0x3b3b3b3b3b4e3b3b3b3b3b4c3b303b6f4c3b41484c2053434942414c4c5953204e414944414e41433b34413531,
0x3b3b3b3b3b4e3b3b3b3b3b4c3b303b6f4c3b4141484c2053434942414c4c5953204e414944414e41433b35413531,
0x3b3b3b3b3b4e3b3b3b3b3b4c3b303b6f4c3b484c2053434942414c4c5953204e414944414e41433b36413531,
0x3b3b3b3b3b4e3b3b3b3b3b4c3b303b6f4c3b45485420454552432d48542053434942414c4c5953204e414944414e41433b37413531,
0x3b3b3b3b3b4e3b3b3b3b3b4c3b303b6f4c3b49485420454552432d48542053434942414c4c5953204e414944414e41433b38413531,
0x3b3b3b3b3b4e3b3b3b3b3b4c3b303b6f4c3b4949485420454552432d48542053434942414c4c5953204e414944414e41433b39413531,
0x3b3b3b3b3b4e3b3b3b3b3b4c3b303b6f4c3b4f485420454552432d48542053434942414c4c5953204e414944414e41433b41413531,
0x3b3b3b3b3b4e3b3b3b3b3b4c3b303b6f4c3b4f4f485420454552432d48542053434942414c4c5953204e414944414e41433b42413531,
0x3b3b3b3b3b4e3b3b3b3b3b4c3b303b6f4c3b41485420454552432d48542053434942414c4c5953204e414944414e41433b43413531,
0x3b3b3b3b3b4e3b3b3b3b3b4c3b303b6f4c3b4141485420454552432d48542053434942414c4c5953204e414944414e41433b44413531,
0x3b3b3b3b3b4e3b3b3b3b3b4c3b303b6f4c3b485420454552432d48542053434942414c4c5953204e414944414e41433b45413531,
0x3b3b3b3b3b4e3b3b3b3b3b4c3b303b6f4c3b42204b494c495649412053434942414c4c5953204e414944414e41433b46413531,
0x3b3b3b3b3b4e3b3b3b3b3b4c3b303b6f4c3b4520544f4f464b43414c422053434942414c4c5953204e414944414e41433b30423531,
0x3b3b3b3b3b4e3b3b3b3b3b4c3b303b6f4c3b4920544f4f464b43414c422053434942414c4c5953204e414944414e41433b31423531,
0x3b3b3b3b3b4e3b3b3b3b3b4c3b303b6f4c3b4f20544f4f464b43414c422053434942414c4c5953204e414944414e41433b32423531,
0x3b3b3b3b3b4e3b3b3b3b3b4c3b303b6f4c3b4120544f4f464b43414c422053434942414c4c5953204e414944414e41433b33423531,
0x3b3b3b3b3b4e3b3b3b3b3b4c3b303b6f4c3b455720544f4f464b43414c422053434942414c4c5953204e414944414e41433b34423531]

/-- src/u5e/props/UnicodeData.txt lines 4865-5120. -/
def rawUcd19 : List Nat := [
0x3b3b3b3b3b4e3b3b3b3b3b4c3b303b6f4c3b495720544f4f464b43414c422053434942414c4c5953204e414944414e41433b35423531,
0x3b3b3b3b3b4e3b3b3b3b3b4c3b303b6f4c3b4f5720544f4f464b43414c422053434942414c4c5953204e414944414e41433b36423531,
0x3b3b3b3b3b4e3b3b3b3b3b4c3b303b6f4c3b415720544f4f464b43414c422053434942414c4c5953204e414944414e41433b37423531,
0x3b3b3b3b3b4e3b3b3b3b3b4c3b303b6f4c3b454e20544f4f464b43414c422053434942414c4c5953204e414944414e41433b38423531,
0x3b3b3b3b3b4e3b3b3b3b3b4c3b303b6f4c3b494e20544f4f464b43414c422053434942414c4c5953204e414944414e41433b39423531,
0x3b3b3b3b3b4e3b3b3b3b3b4c3b303b6f4c3b4f4e20544f4f464b43414c422053434942414c4c5953204e414944414e41433b41423531,
0x3b3b3b3b3b4e3b3b3b3b3b4c3b303b6f4c3b414e20544f4f464b43414c422053434942414c4c5953204e414944414e41433b42423531,
0x3b3b3b3b3b4e3b3b3b3b3b4c3b303b6f4c3b454b20544f4f464b43414c422053434942414c4c5953204e414944414e41433b43423531,
0x3b3b3b3b3b4e3b3b3b3b3b4c3b303b6f4c3b494b20544f4f464b43414c422053434942414c4c5953204e414944414e41433b44423531,
0x3b3b3b3b3b4e3b3b3b3b3b4c3b303b6f4c3b4f4b20544f4f464b43414c422053434942414c4c5953204e414944414e41433b45423531,
0x3b3b3b3b3b4e3b3b3b3b3b4c3b303b6f4c3b414b20544f4f464b43414c422053434942414c4c5953204e414944414e41433b46423531,
0x3b3b3b3b3b4e3b3b3b3b3b4c3b303b6f4c3b4548204953495941532053434942414c4c5953204e414944414e41433b30433531,
0x3b3b3b3b3b4e3b3b3b3b3b4c3b303b6f4c3b4948204953495941532053434942414c4c5953204e414944414e41433b31433531,
0x3b3b3b3b3b4e3b3b3b3b3b4c3b303b6f4c3b4f48204953495941532053434942414c4c5953204e414944414e41433b32433531,
0x3b3b3b3b3b4e3b3b3b3b3b4c3b303b6f4c3b4148204953495941532053434942414c4c5953204e414944414e41433b33433531,
0x3b3b3b3b3b4e3b3b3b3b3b4c3b303b6f4c3b55484720524549525241432053434942414c4c5953204e414944414e41433b34433531,
0x3b3b3b3b3b4e3b3b3b3b3b4c3b303b6f4c3b4f484720524549525241432053434942414c4c5953204e414944414e41433b35433531,
0x3b3b3b3b3b4e3b3b3b3b3b4c3b303b6f4c3b45484720524549525241432053434942414c4c5953204e414944414e41433b36433531,
0x3b3b3b3b3b4e3b3b3b3b3b4c3b303b6f4c3b4545484720524549525241432053434942414c4c5953204e414944414e41433b37433531,
0x3b3b3b3b3b4e3b3b3b3b3b4c3b303b6f4c3b49484720524549525241432053434942414c4c5953204e414944414e41433b38433531,
0x3b3b3b3b3b4e3b3b3b3b3b4c3b303b6f4c3b41484720524549525241432053434942414c4c5953204e414944414e41433b39433531,
0x3b3b3b3b3b4e3b3b3b3b3b4c3b303b6f4c3b555220524549525241432053434942414c4c5953204e414944414e41433b41433531,
0x3b3b3b3b3b4e3b3b3b3b3b4c3b303b6f4c3b4f5220524549525241432053434942414c4c5953204e414944414e41433b42433531,
0x3b3b3b3b3b4e3b3b3b3b3b4c3b303b6f4c3b455220524549525241432053434942414c4c5953204e414944414e41433b43433531,
0x3b3b3b3b3b4e3b3b3b3b3b4c3b303b6f4c3b45455220524549525241432053434942414c4c5953204e414944414e41433b44433531,
0x3b3b3b3b3b4e3b3b3b3b3b4c3b303b6f4c3b495220524549525241432053434942414c4c5953204e414944414e41433b45433531,
0x3b3b3b3b3b4e3b3b3b3b3b4c3b303b6f4c3b415220524549525241432053434942414c4c5953204e414944414e41433b46433531,
0x3b3b3b3b3b4e3b3b3b3b3b4c3b303b6f4c3b555720524549525241432053434942414c4c5953204e414944414e41433b30443531,
0x3b3b3b3b3b4e3b3b3b3b3b4c3b303b6f4c3b4f5720524549525241432053434942414c4c5953204e414944414e41433b31443531,
0x3b3b3b3b3b4e3b3b3b3b3b4c3b303b6f4c3b455720524549525241432053434942414c4c5953204e414944414e41433b32443531,
0x3b3b3b3b3b4e3b3b3b3b3b4c3b303b6f4c3b45455720524549525241432053434942414c4c5953204e414944414e41433b33443531,
0x3b3b3b3b3b4e3b3b3b3b3b4c3b303b6f4c3b495720524549525241432053434942414c4c5953204e414944414e41433b34443531,
0x3b3b3b3b3b4e3b3b3b3b3b4c3b303b6f4c3b415720524549525241432053434942414c4c5953204e414944414e41433b35443531,
0x3b3b3b3b3b4e3b3b3b3b3b4c3b303b6f4c3b55574820524549525241432053434942414c4c5953204e414944414e41433b36443531,
0x3b3b3b3b3b4e3b3b3b3b3b4c3b303b6f4c3b4f574820524549525241432053434942414c4c5953204e414944414e41433b37443531,
0x3b3b3b3b3b4e3b3b3b3b3b4c3b303b6f4c3b45574820524549525241432053434942414c4c5953204e414944414e41433b38443531,
0x3b3b3b3b3b4e3b3b3b3b3b4c3b303b6f4c3b4545574820524549525241432053434942414c4c5953204e414944414e41433b39443531,
0x3b3b3b3b3b4e3b3b3b3b3b4c3b303b6f4c3b49574820524549525241432053434942414c4c5953204e414944414e41433b41443531,
0x3b3b3b3b3b4e3b3b3b3b3b4c3b303b6f4c3b41574820524549525241432053434942414c4c5953204e414944414e41433b42443531,
0x3b3b3b3b3b4e3b3b3b3b3b4c3b303b6f4c3b55485420524549525241432053434942414c4c5953204e414944414e41433b43443531,
0x3b3b3b3b3b4e3b3b3b3b3b4c3b303b6f4c3b4f485420524549525241432053434942414c4c5953204e414944414e41433b44443531,
0x3b3b3b3b3b4e3b3b3b3b3b4c3b303b6f4c3b45485420524549525241432053434942414c4c5953204e414944414e41433b45443531,
0x3b3b3b3b3b4e3b3b3b3b3b4c3b303b6f4c3b4545485420524549525241432053434942414c4c5953204e414944414e41433b46443531,
0x3b3b3b3b3b4e3b3b3b3b3b4c3b303b6f4c3b49485420524549525241432053434942414c4c5953204e414944414e41433b30453531,
0x3b3b3b3b3b4e3b3b3b3b3b4c3b303b6f4c3b41485420524549525241432053434942414c4c5953204e414944414e41433b31453531,
0x3b3b3b3b3b4e3b3b3b3b3b4c3b303b6f4c3b55545420524549525241432053434942414c4c5953204e414944414e41433b32453531,
0x3b3b3b3b3b4e3b3b3b3b3b4c3b303b6f4c3b4f545420524549525241432053434942414c4c5953204e414944414e41433b33453531,
0x3b3b3b3b3b4e3b3b3b3b3b4c3b303b6f4c3b45545420524549525241432053434942414c4c5953204e414944414e41433b34453531,
0x3b3b3b3b3b4e3b3b3b3b3b4c3b303b6f4c3b4545545420524549525241432053434942414c4c5953204e414944414e41433b35453531,
0x3b3b3b3b3b4e3b3b3b3b3b4c3b303b6f4c3b49545420524549525241432053434942414c4c5953204e414944414e41433b36453531,
0x3b3b3b3b3b4e3b3b3b3b3b4c3b303b6f4c3b41545420524549525241432053434942414c4c5953204e414944414e41433b37453531,
0x3b3b3b3b3b4e3b3b3b3b3b4c3b303b6f4c3b555020524549525241432053434942414c4c5953204e414944414e41433b38453531,
0x3b3b3b3b3b4e3b3b3b3b3b4c3b303b6f4c3b4f5020524549525241432053434942414c4c5953204e414944414e41433b39453531,
0x3b3b3b3b3b4e3b3b3b3b3b4c3b303b6f4c3b455020524549525241432053434942414c4c5953204e414944414e41433b41453531,
0x3b3b3b3b3b4e3b3b3b3b3b4c3b303b6f4c3b45455020524549525241432053434942414c4c5953204e414944414e41433b42453531,
0x3b3b3b3b3b4e3b3b3b3b3b4c3b303b6f4c3b495020524549525241432053434942414c4c5953204e414944414e41433b43453531,
0x3b3b3b3b3b4e3b3b3b3b3b4c3b303b6f4c3b415020524549525241432053434942414c4c5953204e414944414e41433b44453531,
0x3b3b3b3b3b4e3b3b3b3b3b4c3b303b6f4c3b5020524549525241432053434942414c4c5953204e414944414e41433b45453531,
0x3b3b3b3b3b4e3b3b3b3b3b4c3b303b6f4c3b554720524549525241432053434942414c4c5953204e414944414e41433b46453531,
0x3b3b3b3b3b4e3b3b3b3b3b4c3b303b6f4c3b4f4720524549525241432053434942414c4c5953204e414944414e41433b30463531,
0x3b3b3b3b3b4e3b3b3b3b3b4c3b303b6f4c3b454720524549525241432053434942414c4c5953204e414944414e41433b31463531,
0x3b3b3b3b3b4e3b3b3b3b3b4c3b303b6f4c3b45454720524549525241432053434942414c4c5953204e414944414e41433b32463531,
0x3b3b3b3b3b4e3b3b3b3b3b4c3b303b6f4c3b494720524549525241432053434942414c4c5953204e414944414e41433b33463531,
0x3b3b3b3b3b4e3b3b3b3b3b4c3b303b6f4c3b414720524549525241432053434942414c4c5953204e414944414e41433b34463531,
0x3b3b3b3b3b4e3b3b3b3b3b4c3b303b6f4c3b55484b20524549525241432053434942414c4c5953204e414944414e41433b35463531,
0x3b3b3b3b3b4e3b3b3b3b3b4c3b303b6f4c3b4f484b20524549525241432053434942414c4c5953204e414944414e41433b36463531,
0x3b3b3b3b3b4e3b3b3b3b3b4c3b303b6f4c3b45484b20524549525241432053434942414c4c5953204e414944414e41433b37463531,
0x3b3b3b3b3b4e3b3b3b3b3b4c3b303b6f4c3b4545484b20524549525241432053434942414c4c5953204e414944414e41433b38463531,
0x3b3b3b3b3b4e3b3b3b3b3b4c3b303b6f4c3b49484b20524549525241432053434942414c4c5953204e414944414e41433b39463531,
0x3b3b3b3b3b4e3b3b3b3b3b4c3b303b6f4c3b41484b20524549525241432053434942414c4c5953204e414944414e41433b41463531,
0x3b3b3b3b3b4e3b3b3b3b3b4c3b303b6f4c3b554b4b20524549525241432053434942414c4c5953204e414944414e41433b42463531,
0x3b3b3b3b3b4e3b3b3b3b3b4c3b303b6f4c3b4f4b4b20524549525241432053434942414c4c5953204e414944414e41433b43463531,
0x3b3b3b3b3b4e3b3b3b3b3b4c3b303b6f4c3b454b4b20524549525241432053434942414c4c5953204e414944414e41433b44463531,
0x3b3b3b3b3b4e3b3b3b3b3b4c3b303b6f4c3b45454b4b20524549525241432053434942414c4c5953204e414944414e41433b45463531,
0x3b3b3b3b3b4e3b3b3b3b3b4c3b303b6f4c3b494b4b20524549525241432053434942414c4c5953204e414944414e41433b46463531,
0x3b3b3b3b3b4e3b3b3b3b3b4c3b303b6f4c3b414b4b20524549525241432053434942414c4c5953204e414944414e41433b30303631,
0x3b3b3b3b3b4e3b3b3b3b3b4c3b303b6f4c3b4b4b20524549525241432053434942414c4c5953204e414944414e41433b31303631,
0x3b3b3b3b3b4e3b3b3b3b3b4c3b303b6f4c3b554e20524549525241432053434942414c4c5953204e414944414e41433b32303631,
0x3b3b3b3b3b4e3b3b3b3b3b4c3b303b6f4c3b4f4e20524549525241432053434942414c4c5953204e414944414e41433b33303631,
0x3b3b3b3b3b4e3b3b3b3b3b4c3b303b6f4c3b454e20524549525241432053434942414c4c5953204e414944414e41433b34303631,
0x3b3b3b3b3b4e3b3b3b3b3b4c3b303b6f4c3b45454e20524549525241432053434942414c4c5953204e414944414e41433b35303631,
0x3b3b3b3b3b4e3b3b3b3b3b4c3b303b6f4c3b494e20524549525241432053434942414c4c5953204e414944414e41433b36303631,
0x3b3b3b3b3b4e3b3b3b3b3b4c3b303b6f4c3b414e20524549525241432053434942414c4c5953204e414944414e41433b37303631,
0x3b3b3b3b3b4e3b3b3b3b3b4c3b303b6f4c3b554d20524549525241432053434942414c4c5953204e414944414e41433b38303631,
0x3b3b3b3b3b4e3b3b3b3b3b4c3b303b6f4c3b4f4d20524549525241432053434942414c4c5953204e414944414e41433b39303631,
0x3b3b3b3b3b4e3b3b3b3b3b4c3b303b6f4c3b454d20524549525241432053434942414c4c5953204e414944414e41433b41303631,
0x3b3b3b3b3b4e3b3b3b3b3b4c3b303b6f4c3b45454d20524549525241432053434942414c4c5953204e414944414e41433b42303631,
0x3b3b3b3b3b4e3b3b3b3b3b4c3b303b6f4c3b494d20524549525241432053434942414c4c5953204e414944414e41433b43303631,
0x3b3b3b3b3b4e3b3b3b3b3b4c3b303b6f4c3b414d20524549525241432053434942414c4c5953204e414944414e41433b44303631,
0x3b3b3b3b3b4e3b3b3b3b3b4c3b303b6f4c3b555920524549525241432053434942414c4c5953204e414944414e41433b45303631,
0x3b3b3b3b3b4e3b3b3b3b3b4c3b303b6f4c3b4f5920524549525241432053434942414c4c5953204e414944414e41433b46303631,
0x3b3b3b3b3b4e3b3b3b3b3b4c3b303b6f4c3b455920524549525241432053434942414c4c5953204e414944414e41433b30313631,
0x3b3b3b3b3b4e3b3b3b3b3b4c3b303b6f4c3b45455920524549525241432053434942414c4c5953204e414944414e41433b31313631,
0x3b3b3b3b3b4e3b3b3b3b3b4c3b303b6f4c3b495920524549525241432053434942414c4c5953204e414944414e41433b32313631,
0x3b3b3b3b3b4e3b3b3b3b3b4c3b303b6f4c3b415920524549525241432053434942414c4c5953204e414944414e41433b33313631,
0x3b3b3b3b3b4e3b3b3b3b3b4c3b303b6f4c3b554a20524549525241432053434942414c4c5953204e414944414e41433b34313631,
0x3b3b3b3b3b4e3b3b3b3b3b4c3b303b6f4c3b554a204953495941532053434942414c4c5953204e414944414e41433b35313631,
0x3b3b3b3b3b4e3b3b3b3b3b4c3b303b6f4c3b4f4a20524549525241432053434942414c4c5953204e414944414e41433b36313631,
0x3b3b3b3b3b4e3b3b3b3b3b4c3b303b6f4c3b454a20524549525241432053434942414c4c5953204e414944414e41433b37313631,
0x3b3b3b3b3b4e3b3b3b3b3b4c3b303b6f4c3b45454a20524549525241432053434942414c4c5953204e414944414e41433b38313631,
0x3b3b3b3b3b4e3b3b3b3b3b4c3b303b6f4c3b494a20524549525241432053434942414c4c5953204e414944414e41433b39313631,
0x3b3b3b3b3b4e3b3b3b3b3b4c3b303b6f4c3b494a204953495941532053434942414c4c5953204e414944414e41433b41313631,
0x3b3b3b3b3b4e3b3b3b3b3b4c3b303b6f4c3b414a20524549525241432053434942414c4c5953204e414944414e41433b42313631,
0x3b3b3b3b3b4e3b3b3b3b3b4c3b303b6f4c3b554a4a20524549525241432053434942414c4c5953204e414944414e41433b43313631,
0x3b3b3b3b3b4e3b3b3b3b3b4c3b303b6f4c3b4f4a4a20524549525241432053434942414c4c5953204e414944414e41433b44313631,
0x3b3b3b3b3b4e3b3b3b3b3b4c3b303b6f4c3b454a4a20524549525241432053434942414c4c5953204e414944414e41433b45313631,
0x3b3b3b3b3b4e3b3b3b3b3b4c3b303b6f4c3b45454a4a20524549525241432053434942414c4c5953204e414944414e41433b46313631,
0x3b3b3b3b3b4e3b3b3b3b3b4c3b303b6f4c3b494a4a20524549525241432053434942414c4c5953204e414944414e41433b30323631,
0x3b3b3b3b3b4e3b3b3b3b3b4c3b303b6f4c3b414a4a20524549525241432053434942414c4c5953204e414944414e41433b31323631,
0x3b3b3b3b3b4e3b3b3b3b3b4c3b303b6f4c3b554c20524549525241432053434942414c4c5953204e414944414e41433b32323631,
0x3b3b3b3b3b4e3b3b3b3b3b4c3b303b6f4c3b4f4c20524549525241432053434942414c4c5953204e414944414e41433b33323631,
0x3b3b3b3b3b4e3b3b3b3b3b4c3b303b6f4c3b454c20524549525241432053434942414c4c5953204e414944414e41433b34323631,
0x3b3b3b3b3b4e3b3b3b3b3b4c3b303b6f4c3b45454c20524549525241432053434942414c4c5953204e414944414e41433b35323631,
0x3b3b3b3b3b4e3b3b3b3b3b4c3b303b6f4c3b494c20524549525241432053434942414c4c5953204e414944414e41433b36323631,
0x3b3b3b3b3b4e3b3b3b3b3b4c3b303b6f4c3b414c20524549525241432053434942414c4c5953204e414944414e41433b37323631,
0x3b3b3b3b3b4e3b3b3b3b3b4c3b303b6f4c3b554c4420524549525241432053434942414c4c5953204e414944414e41433b38323631,
0x3b3b3b3b3b4e3b3b3b3b3b4c3b303b6f4c3b4f4c4420524549525241432053434942414c4c5953204e414944414e41433b39323631,
0x3b3b3b3b3b4e3b3b3b3b3b4c3b303b6f4c3b454c4420524549525241432053434942414c4c5953204e414944414e41433b41323631,
0x3b3b3b3b3b4e3b3b3b3b3b4c3b303b6f4c3b45454c4420524549525241432053434942414c4c5953204e414944414e41433b42323631,
0x3b3b3b3b3b4e3b3b3b3b3b4c3b303b6f4c3b494c4420524549525241432053434942414c4c5953204e414944414e41433b43323631,
0x3b3b3b3b3b4e3b3b3b3b3b4c3b303b6f4c3b414c4420524549525241432053434942414c4c5953204e414944414e41433b44323631,
0x3b3b3b3b3b4e3b3b3b3b3b4c3b303b6f4c3b55484c20524549525241432053434942414c4c5953204e414944414e41433b45323631,
0x3b3b3b3b3b4e3b3b3b3b3b4c3b303b6f4c3b4f484c20524549525241432053434942414c4c5953204e414944414e41433b46323631,
0x3b3b3b3b3b4e3b3b3b3b3b4c3b303b6f4c3b45484c20524549525241432053434942414c4c5953204e414944414e41433b30333631,
0x3b3b3b3b3b4e3b3b3b3b3b4c3b303b6f4c3b4545484c20524549525241432053434942414c4c5953204e414944414e41433b31333631,
0x3b3b3b3b3b4e3b3b3b3b3b4c3b303b6f4c3b49484c20524549525241432053434942414c4c5953204e414944414e41433b32333631,
0x3b3b3b3b3b4e3b3b3b3b3b4c3b303b6f4c3b41484c20524549525241432053434942414c4c5953204e414944414e41433b33333631,
0x3b3b3b3b3b4e3b3b3b3b3b4c3b303b6f4c3b55484c5420524549525241432053434942414c4c5953204e414944414e41433b34333631,
0x3b3b3b3b3b4e3b3b3b3b3b4c3b303b6f4c3b4f484c5420524549525241432053434942414c4c5953204e414944414e41433b35333631,
0x3b3b3b3b3b4e3b3b3b3b3b4c3b303b6f4c3b45484c5420524549525241432053434942414c4c5953204e414944414e41433b36333631,
0x3b3b3b3b3b4e3b3b3b3b3b4c3b303b6f4c3b4545484c5420524549525241432053434942414c4c5953204e414944414e41433b37333631,
0x3b3b3b3b3b4e3b3b3b3b3b4c3b303b6f4c3b49484c5420524549525241432053434942414c4c5953204e414944414e41433b38333631,
0x3b3b3b3b3b4e3b3b3b3b3b4c3b303b6f4c3b41484c5420524549525241432053434942414c4c5953204e414944414e41433b39333631,
0x3b3b3b3b3b4e3b3b3b3b3b4c3b303b6f4c3b554c5420524549525241432053434942414c4c5953204e414944414e41433b41333631,
0x3b3b3b3b3b4e3b3b3b3b3b4c3b303b6f4c3b4f4c5420524549525241432053434942414c4c5953204e414944414e41433b42333631,
0x3b3b3b3b3b4e3b3b3b3b3b4c3b303b6f4c3b454c5420524549525241432053434942414c4c5953204e414944414e41433b43333631,
0x3b3b3b3b3b4e3b3b3b3b3b4c3b303b6f4c3b45454c5420524549525241432053434942414c4c5953204e414944414e41433b44333631,
0x3b3b3b3b3b4e3b3b3b3b3b4c3b303b6f4c3b494c5420524549525241432053434942414c4c5953204e414944414e41433b45333631,
0x3b3b3b3b3b4e3b3b3b3b3b4c3b303b6f4c3b414c5420524549525241432053434942414c4c5953204e414944414e41433b46333631,
0x3b3b3b3b3b4e3b3b3b3b3b4c3b303b6f4c3b555a20524549525241432053434942414c4c5953204e414944414e41433b30343631,
0x3b3b3b3b3b4e3b3b3b3b3b4c3b303b6f4c3b4f5a20524549525241432053434942414c4c5953204e414944414e41433b31343631,
0x3b3b3b3b3b4e3b3b3b3b3b4c3b303b6f4c3b455a20524549525241432053434942414c4c5953204e414944414e41433b32343631,
0x3b3b3b3b3b4e3b3b3b3b3b4c3b303b6f4c3b45455a20524549525241432053434942414c4c5953204e414944414e41433b33343631,
0x3b3b3b3b3b4e3b3b3b3b3b4c3b303b6f4c3b495a20524549525241432053434942414c4c5953204e414944414e41433b34343631,
0x3b3b3b3b3b4e3b3b3b3b3b4c3b303b6f4c3b415a20524549525241432053434942414c4c5953204e414944414e41433b35343631,
0x3b3b3b3b3b4e3b3b3b3b3b4c3b303b6f4c3b5a20524549525241432053434942414c4c5953204e414944414e41433b36343631,
0x3b3b3b3b3b4e3b3b3b3b3b4c3b303b6f4c3b5a204c414954494e4920524549525241432053434942414c4c5953204e414944414e41433b37343631,
0x3b3b3b3b3b4e3b3b3b3b3b4c3b303b6f4c3b555a4420524549525241432053434942414c4c5953204e414944414e41433b38343631,
0x3b3b3b3b3b4e3b3b3b3b3b4c3b303b6f4c3b4f5a4420524549525241432053434942414c4c5953204e414944414e41433b39343631,
0x3b3b3b3b3b4e3b3b3b3b3b4c3b303b6f4c3b455a4420524549525241432053434942414c4c5953204e414944414e41433b41343631,
0x3b3b3b3b3b4e3b3b3b3b3b4c3b303b6f4c3b45455a4420524549525241432053434942414c4c5953204e414944414e41433b42343631,
0x3b3b3b3b3b4e3b3b3b3b3b4c3b303b6f4c3b495a4420524549525241432053434942414c4c5953204e414944414e41433b43343631,
0x3b3b3b3b3b4e3b3b3b3b3b4c3b303b6f4c3b415a4420524549525241432053434942414c4c5953204e414944414e41433b44343631,
0x3b3b3b3b3b4e3b3b3b3b3b4c3b303b6f4c3b555320524549525241432053434942414c4c5953204e414944414e41433b45343631,
0x3b3b3b3b3b4e3b3b3b3b3b4c3b303b6f4c3b4f5320524549525241432053434942414c4c5953204e414944414e41433b46343631,
0x3b3b3b3b3b4e3b3b3b3b3b4c3b303b6f4c3b455320524549525241432053434942414c4c5953204e414944414e41433b30353631,
0x3b3b3b3b3b4e3b3b3b3b3b4c3b303b6f4c3b45455320524549525241432053434942414c4c5953204e414944414e41433b31353631,
0x3b3b3b3b3b4e3b3b3b3b3b4c3b303b6f4c3b495320524549525241432053434942414c4c5953204e414944414e41433b32353631,
0x3b3b3b3b3b4e3b3b3b3b3b4c3b303b6f4c3b415320524549525241432053434942414c4c5953204e414944414e41433b33353631,
0x3b3b3b3b3b4e3b3b3b3b3b4c3b303b6f4c3b55485320524549525241432053434942414c4c5953204e414944414e41433b34353631,
0x3b3b3b3b3b4e3b3b3b3b3b4c3b303b6f4c3b4f485320524549525241432053434942414c4c5953204e414944414e41433b35353631,
0x3b3b3b3b3b4e3b3b3b3b3b4c3b303b6f4c3b45485320524549525241432053434942414c4c5953204e414944414e41433b36353631,
0x3b3b3b3b3b4e3b3b3b3b3b4c3b303b6f4c3b4545485320524549525241432053434942414c4c5953204e414944414e41433b37353631,
0x3b3b3b3b3b4e3b3b3b3b3b4c3b303b6f4c3b49485320524549525241432053434942414c4c5953204e414944414e41433b38353631,
0x3b3b3b3b3b4e3b3b3b3b3b4c3b303b6f4c3b41485320524549525241432053434942414c4c5953204e414944414e41433b39353631,
0x3b3b3b3b3b4e3b3b3b3b3b4c3b303b6f4c3b485320524549525241432053434942414c4c5953204e414944414e41433b41353631,
0x3b3b3b3b3b4e3b3b3b3b3b4c3b303b6f4c3b55535420524549525241432053434942414c4c5953204e414944414e41433b42353631,
0x3b3b3b3b3b4e3b3b3b3b3b4c3b303b6f4c3b4f535420524549525241432053434942414c4c5953204e414944414e41433b43353631,
0x3b3b3b3b3b4e3b3b3b3b3b4c3b303b6f4c3b45535420524549525241432053434942414c4c5953204e414944414e41433b44353631,
0x3b3b3b3b3b4e3b3b3b3b3b4c3b303b6f4c3b4545535420524549525241432053434942414c4c5953204e414944414e41433b45353631,
0x3b3b3b3b3b4e3b3b3b3b3b4c3b303b6f4c3b49535420524549525241432053434942414c4c5953204e414944414e41433b46353631,
0x3b3b3b3b3b4e3b3b3b3b3b4c3b303b6f4c3b41535420524549525241432053434942414c4c5953204e414944414e41433b30363631,
0x3b3b3b3b3b4e3b3b3b3b3b4c3b303b6f4c3b55484320524549525241432053434942414c4c5953204e414944414e41433b31363631,
0x3b3b3b3b3b4e3b3b3b3b3b4c3b303b6f4c3b4f484320524549525241432053434942414c4c5953204e414944414e41433b32363631,
0x3b3b3b3b3b4e3b3b3b3b3b4c3b303b6f4c3b45484320524549525241432053434942414c4c5953204e414944414e41433b33363631,
0x3b3b3b3b3b4e3b3b3b3b3b4c3b303b6f4c3b4545484320524549525241432053434942414c4c5953204e414944414e41433b34363631,
0x3b3b3b3b3b4e3b3b3b3b3b4c3b303b6f4c3b49484320524549525241432053434942414c4c5953204e414944414e41433b35363631,
0x3b3b3b3b3b4e3b3b3b3b3b4c3b303b6f4c3b41484320524549525241432053434942414c4c5953204e414944414e41433b36363631,
0x3b3b3b3b3b4e3b3b3b3b3b4c3b303b6f4c3b5553545420524549525241432053434942414c4c5953204e414944414e41433b37363631,
0x3b3b3b3b3b4e3b3b3b3b3b4c3b303b6f4c3b4f53545420524549525241432053434942414c4c5953204e414944414e41433b38363631,
0x3b3b3b3b3b4e3b3b3b3b3b4c3b303b6f4c3b4553545420524549525241432053434942414c4c5953204e414944414e41433b39363631,
0x3b3b3b3b3b4e3b3b3b3b3b4c3b303b6f4c3b454553545420524549525241432053434942414c4c5953204e414944414e41433b41363631,
0x3b3b3b3b3b4e3b3b3b3b3b4c3b303b6f4c3b4953545420524549525241432053434942414c4c5953204e414944414e41433b42363631,
0x3b3b3b3b3b4e3b3b3b3b3b4c3b303b6f4c3b4153545420524549525241432053434942414c4c5953204e414944414e41433b43363631,
0x3b3b3b3b3b4e3b3b3b3b3b4c3b303b6f503b4e474953204948432053434942414c4c5953204e414944414e41433b44363631,
0x3b3b3b3b3b4e3b3b3b3b3b4c3b303b6f503b504f5453204c4c55462053434942414c4c5953204e414944414e41433b45363631,
0x3b3b3b3b3b4e3b3b3b3b3b4c3b303b6f4c3b4941512053434942414c4c5953204e414944414e41433b46363631,
0x3b3b3b3b3b4e3b3b3b3b3b4c3b303b6f4c3b4941474e2053434942414c4c5953204e414944414e41433b30373631,
0x3b3b3b3b3b4e3b3b3b3b3b4c3b303b6f4c3b49474e4e2053434942414c4c5953204e414944414e41433b31373631,
0x3b3b3b3b3b4e3b3b3b3b3b4c3b303b6f4c3b4949474e4e2053434942414c4c5953204e414944414e41433b32373631,
0x3b3b3b3b3b4e3b3b3b3b3b4c3b303b6f4c3b4f474e4e2053434942414c4c5953204e414944414e41433b33373631,
0x3b3b3b3b3b4e3b3b3b3b3b4c3b303b6f4c3b4f4f474e4e2053434942414c4c5953204e414944414e41433b34373631,
0x3b3b3b3b3b4e3b3b3b3b3b4c3b303b6f4c3b41474e4e2053434942414c4c5953204e414944414e41433b35373631,
0x3b3b3b3b3b4e3b3b3b3b3b4c3b303b6f4c3b4141474e4e2053434942414c4c5953204e414944414e41433b36373631,
0x3b3b3b3b3b4e3b3b3b3b3b4c3b303b6f4c3b454557485420454552432d53444f4f572053434942414c4c5953204e414944414e41433b37373631,
0x3b3b3b3b3b4e3b3b3b3b3b4c3b303b6f4c3b4957485420454552432d53444f4f572053434942414c4c5953204e414944414e41433b38373631,
0x3b3b3b3b3b4e3b3b3b3b3b4c3b303b6f4c3b494957485420454552432d53444f4f572053434942414c4c5953204e414944414e41433b39373631,
0x3b3b3b3b3b4e3b3b3b3b3b4c3b303b6f4c3b4f57485420454552432d53444f4f572053434942414c4c5953204e414944414e41433b41373631,
0x3b3b3b3b3b4e3b3b3b3b3b4c3b303b6f4c3b4f4f57485420454552432d53444f4f572053434942414c4c5953204e414944414e41433b42373631,
0x3b3b3b3b3b4e3b3b3b3b3b4c3b303b6f4c3b4157485420454552432d53444f4f572053434942414c4c5953204e414944414e41433b43373631,
0x3b3b3b3b3b4e3b3b3b3b3b4c3b303b6f4c3b414157485420454552432d53444f4f572053434942414c4c5953204e414944414e41433b44373631,
0x3b3b3b3b3b4e3b3b3b3b3b4c3b303b6f4c3b4854204c414e494620454552432d53444f4f572053434942414c4c5953204e414944414e41433b45373631,
0x3b3b3b3b3b4e3b3b3b3b3b4c3b303b6f4c3b5720544f4f464b43414c422053434942414c4c5953204e414944414e41433b46373631,
0x3b3b3b3b3b4e3b3b3b3b3b53573b303b735a3b4b52414d204543415053204d4148474f3b30383631,
0x3b3b3b3b3b4e3b3b3b3b3b4c3b303b6f4c3b48544945422052455454454c204d4148474f3b31383631,
0x3b3b3b3b3b4e3b3b3b3b3b4c3b303b6f4c3b5349554c2052455454454c204d4148474f3b32383631,
0x3b3b3b3b3b4e3b3b3b3b3b4c3b303b6f4c3b4e524145462052455454454c204d4148474f3b33383631,
0x3b3b3b3b3b4e3b3b3b3b3b4c3b303b6f4c3b4c4941532052455454454c204d4148474f3b34383631,
0x3b3b3b3b3b4e3b3b3b3b3b4c3b303b6f4c3b4e4f494e2052455454454c204d4148474f3b35383631,
0x3b3b3b3b3b4e3b3b3b3b3b4c3b303b6f4c3b485441552052455454454c204d4148474f3b36383631,
0x3b3b3b3b3b4e3b3b3b3b3b4c3b303b6f4c3b524941442052455454454c204d4148474f3b37383631,
0x3b3b3b3b3b4e3b3b3b3b3b4c3b303b6f4c3b454e4e49542052455454454c204d4148474f3b38383631,
0x3b3b3b3b3b4e3b3b3b3b3b4c3b303b6f4c3b4c4c4f432052455454454c204d4148474f3b39383631,
0x3b3b3b3b3b4e3b3b3b3b3b4c3b303b6f4c3b54524945432052455454454c204d4148474f3b41383631,
0x3b3b3b3b3b4e3b3b3b3b3b4c3b303b6f4c3b4e49554d2052455454454c204d4148474f3b42383631,
0x3b3b3b3b3b4e3b3b3b3b3b4c3b303b6f4c3b54524f472052455454454c204d4148474f3b43383631,
0x3b3b3b3b3b4e3b3b3b3b3b4c3b303b6f4c3b4c41444145474e2052455454454c204d4148474f3b44383631,
0x3b3b3b3b3b4e3b3b3b3b3b4c3b303b6f4c3b4649415254532052455454454c204d4148474f3b45383631,
0x3b3b3b3b3b4e3b3b3b3b3b4c3b303b6f4c3b534955522052455454454c204d4148474f3b46383631,
0x3b3b3b3b3b4e3b3b3b3b3b4c3b303b6f4c3b4d4c49412052455454454c204d4148474f3b30393631,
0x3b3b3b3b3b4e3b3b3b3b3b4c3b303b6f4c3b4e4e4f2052455454454c204d4148474f3b31393631,
0x3b3b3b3b3b4e3b3b3b3b3b4c3b303b6f4c3b52552052455454454c204d4148474f3b32393631,
0x3b3b3b3b3b4e3b3b3b3b3b4c3b303b6f4c3b484441484441452052455454454c204d4148474f3b33393631,
0x3b3b3b3b3b4e3b3b3b3b3b4c3b303b6f4c3b48444148444f492052455454454c204d4148474f3b34393631,
0x3b3b3b3b3b4e3b3b3b3b3b4c3b303b6f4c3b484441484241452052455454454c204d4148474f3b35393631,
0x3b3b3b3b3b4e3b3b3b3b3b4c3b303b6f4c3b524f2052455454454c204d4148474f3b36393631,
0x3b3b3b3b3b4e3b3b3b3b3b4c3b303b6f4c3b4e4e41454c4c49552052455454454c204d4148474f3b37393631,
0x3b3b3b3b3b4e3b3b3b3b3b4c3b303b6f4c3b4e4946492052455454454c204d4148474f3b38393631,
0x3b3b3b3b3b4e3b3b3b3b3b4c3b303b6f4c3b4c4c4f48434e41484d41452052455454454c204d4148474f3b39393631,
0x3b3b3b3b3b4e3b3b3b3b3b4c3b303b6f4c3b48544945502052455454454c204d4148474f3b41393631,
0x3b3b3b3b3b593b3b3b3b3b4e4f3b303b73503b4b52414d2052454854414546204d4148474f3b42393631,
0x3b3b3b3b3b593b3b3b3b3b4e4f3b303b65503b4b52414d2052454854414546204445535245564552204d4148474f3b43393631,
0x3b3b3b3b3b4e3b3b3b3b3b4c3b303b6f4c3b4620454620484f454620554845462052455454454c2043494e55523b30413631,
0x3b3b3b3b3b4e3b3b3b3b3b4c3b303b6f4c3b562052455454454c2043494e55523b31413631,
0x3b3b3b3b3b4e3b3b3b3b3b4c3b303b6f4c3b55205255205a5552552052455454454c2043494e55523b32413631,
0x3b3b3b3b3b4e3b3b3b3b3b4c3b303b6f4c3b52592052455454454c2043494e55523b33413631,
0x3b3b3b3b3b4e3b3b3b3b3b4c3b303b6f4c3b592052455454454c2043494e55523b34413631,
0x3b3b3b3b3b4e3b3b3b3b3b4c3b303b6f4c3b572052455454454c2043494e55523b35413631,
0x3b3b3b3b3b4e3b3b3b3b3b4c3b303b6f4c3b4e524f4854205352554854205a415349525548542052455454454c2043494e55523b36413631,
0x3b3b3b3b3b4e3b3b3b3b3b4c3b303b6f4c3b4854452052455454454c2043494e55523b37413631,
0x3b3b3b3b3b4e3b3b3b3b3b4c3b303b6f4c3b41205a55534e412052455454454c2043494e55523b38413631,
0x3b3b3b3b3b4e3b3b3b3b3b4c3b303b6f4c3b4f20534f2052455454454c2043494e55523b39413631,
0x3b3b3b3b3b4e3b3b3b3b3b4c3b303b6f4c3b412043412052455454454c2043494e55523b41413631,
0x3b3b3b3b3b4e3b3b3b3b3b4c3b303b6f4c3b435345412052455454454c2043494e55523b42413631,
0x3b3b3b3b3b4e3b3b3b3b3b4c3b303b6f4c3b4f2053534f2d48434e4152422d474e4f4c2052455454454c2043494e55523b43413631,
0x3b3b3b3b3b4e3b3b3b3b3b4c3b303b6f4c3b4f2053534f2d474957542d54524f48532052455454454c2043494e55523b44413631,
0x3b3b3b3b3b4e3b3b3b3b3b4c3b303b6f4c3b4f2052455454454c2043494e55523b45413631,
0x3b3b3b3b3b4e3b3b3b3b3b4c3b303b6f4c3b454f2052455454454c2043494e55523b46413631,
0x3b3b3b3b3b4e3b3b3b3b3b4c3b303b6f4c3b4e4f2052455454454c2043494e55523b30423631,
0x3b3b3b3b3b4e3b3b3b3b3b4c3b303b6f4c3b52204449455220444152204f444941522052455454454c2043494e55523b31423631,
0x3b3b3b3b3b4e3b3b3b3b3b4c3b303b6f4c3b414e55414b2052455454454c2043494e55523b32423631,
0x3b3b3b3b3b4e3b3b3b3b3b4c3b303b6f4c3b4e45432052455454454c2043494e55523b33423631,
0x3b3b3b3b3b4e3b3b3b3b3b4c3b303b6f4c3b4b204e55414b2052455454454c2043494e55523b34423631,
0x3b3b3b3b3b4e3b3b3b3b3b4c3b303b6f4c3b472052455454454c2043494e55523b35423631,
0x3b3b3b3b3b4e3b3b3b3b3b4c3b303b6f4c3b474e452052455454454c2043494e55523b36423631,
0x3b3b3b3b3b4e3b3b3b3b3b4c3b303b6f4c3b472055465947204f4245472052455454454c2043494e55523b37423631]

/-- src/u5e/props/UnicodeData.txt lines 5121-5376. -/
def rawUcd20 : List Nat := [
0x3b3b3b3b3b4e3b3b3b3b3b4c3b303b6f4c3b5241472052455454454c2043494e55523b38423631,
0x3b3b3b3b3b4e3b3b3b3b3b4c3b303b6f4c3b57204e4e5957204f4a4e55572052455454454c2043494e55523b39423631,
0x3b3b3b3b3b4e3b3b3b3b3b4c3b303b6f4c3b48205a414c4741482052455454454c2043494e55523b41423631,
0x3b3b3b3b3b4e3b3b3b3b3b4c3b303b6f4c3b48204c474541482052455454454c2043494e55523b42423631,
0x3b3b3b3b3b4e3b3b3b3b3b4c3b303b6f4c3b48204c4c414741482d48434e4152422d474e4f4c2052455454454c2043494e55523b43423631,
0x3b3b3b3b3b4e3b3b3b3b3b4c3b303b6f4c3b48204c4c414741482d474957542d54524f48532052455454454c2043494e55523b44423631,
0x3b3b3b3b3b4e3b3b3b3b3b4c3b303b6f4c3b4e204455414e2044594e205a494455414e2052455454454c2043494e55523b45423631,
0x3b3b3b3b3b4e3b3b3b3b3b4c3b303b6f4c3b4e204455414e2d474957542d54524f48532052455454454c2043494e55523b46423631,
0x3b3b3b3b3b4e3b3b3b3b3b4c3b303b6f4c3b4e2d444554544f442052455454454c2043494e55523b30433631,
0x3b3b3b3b3b4e3b3b3b3b3b4c3b303b6f4c3b4920535349205349205a4153492052455454454c2043494e55523b31433631,
0x3b3b3b3b3b4e3b3b3b3b3b4c3b303b6f4c3b452052455454454c2043494e55523b32433631,
0x3b3b3b3b3b4e3b3b3b3b3b4c3b303b6f4c3b4a204e4152454a2052455454454c2043494e55523b33433631,
0x3b3b3b3b3b4e3b3b3b3b3b4c3b303b6f4c3b5245472052455454454c2043494e55523b34433631,
0x3b3b3b3b3b4e3b3b3b3b3b4c3b303b6f4c3b45412052412d48434e4152422d474e4f4c2052455454454c2043494e55523b35433631,
0x3b3b3b3b3b4e3b3b3b3b3b4c3b303b6f4c3b412052412d474957542d54524f48532052455454454c2043494e55523b36433631,
0x3b3b3b3b3b4e3b3b3b3b3b4c3b303b6f4c3b484f45205a4157492052455454454c2043494e55523b37433631,
0x3b3b3b3b3b4e3b3b3b3b3b4c3b303b6f4c3b50204854524f4550204f48545245502052455454454c2043494e55523b38433631,
0x3b3b3b3b3b4e3b3b3b3b3b4c3b303b6f4c3b58484c4f45205a49474c412052455454454c2043494e55523b39433631,
0x3b3b3b3b3b4e3b3b3b3b3b4c3b303b6f4c3b53204f4c49574f532052455454454c2043494e55523b41433631,
0x3b3b3b3b3b4e3b3b3b3b3b4c3b303b6f4c3b53204c4f532d48434e4152422d474e4f4c204c454749532052455454454c2043494e55523b42433631,
0x3b3b3b3b3b4e3b3b3b3b3b4c3b303b6f4c3b53204c4f532d474957542d54524f48532052455454454c2043494e55523b43433631,
0x3b3b3b3b3b4e3b3b3b3b3b4c3b303b6f4c3b432052455454454c2043494e55523b44433631,
0x3b3b3b3b3b4e3b3b3b3b3b4c3b303b6f4c3b5a2052455454454c2043494e55523b45433631,
0x3b3b3b3b3b4e3b3b3b3b3b4c3b303b6f4c3b542052595420524954205a415749542052455454454c2043494e55523b46433631,
0x3b3b3b3b3b4e3b3b3b3b3b4c3b303b6f4c3b54205259542d474957542d54524f48532052455454454c2043494e55523b30443631,
0x3b3b3b3b3b4e3b3b3b3b3b4c3b303b6f4c3b442052455454454c2043494e55523b31443631,
0x3b3b3b3b3b4e3b3b3b3b3b4c3b303b6f4c3b42204e414b52414a422043524f4542204e414e414b5245422052455454454c2043494e55523b32443631,
0x3b3b3b3b3b4e3b3b3b3b3b4c3b303b6f4c3b42204e414b52414a422d474957542d54524f48532052455454454c2043494e55523b33443631,
0x3b3b3b3b3b4e3b3b3b3b3b4c3b303b6f4c3b502d444554544f442052455454454c2043494e55523b34443631,
0x3b3b3b3b3b4e3b3b3b3b3b4c3b303b6f4c3b502d4e45504f2052455454454c2043494e55523b35443631,
0x3b3b3b3b3b4e3b3b3b3b3b4c3b303b6f4c3b45204845205a415748452052455454454c2043494e55523b36443631,
0x3b3b3b3b3b4e3b3b3b3b3b4c3b303b6f4c3b4d204e414d205a414e4e414d2052455454454c2043494e55523b37443631,
0x3b3b3b3b3b4e3b3b3b3b3b4c3b303b6f4c3b4d205244414d2d48434e4152422d474e4f4c2052455454454c2043494e55523b38443631,
0x3b3b3b3b3b4e3b3b3b3b3b4c3b303b6f4c3b4d205244414d2d474957542d54524f48532052455454454c2043494e55523b39443631,
0x3b3b3b3b3b4e3b3b3b3b3b4c3b303b6f4c3b4c2052474f4c205547414c205a414b55414c2052455454454c2043494e55523b41443631,
0x3b3b3b3b3b4e3b3b3b3b3b4c3b303b6f4c3b4c2d444554544f442052455454454c2043494e55523b42443631,
0x3b3b3b3b3b4e3b3b3b3b3b4c3b303b6f4c3b5a4157474e492052455454454c2043494e55523b43443631,
0x3b3b3b3b3b4e3b3b3b3b3b4c3b303b6f4c3b474e492052455454454c2043494e55523b44443631,
0x3b3b3b3b3b4e3b3b3b3b3b4c3b303b6f4c3b442047454144205a414741442052455454454c2043494e55523b45443631,
0x3b3b3b3b3b4e3b3b3b3b3b4c3b303b6f4c3b4f204c45485445204e414c4148544f2052455454454c2043494e55523b46443631,
0x3b3b3b3b3b4e3b3b3b3b3b4c3b303b6f4c3b5241452052455454454c2043494e55523b30453631,
0x3b3b3b3b3b4e3b3b3b3b3b4c3b303b6f4c3b524f492052455454454c2043494e55523b31453631,
0x3b3b3b3b3b4e3b3b3b3b3b4c3b303b6f4c3b4854524f4557432052455454454c2043494e55523b32453631,
0x3b3b3b3b3b4e3b3b3b3b3b4c3b303b6f4c3b434c41432052455454454c2043494e55523b33453631,
0x3b3b3b3b3b4e3b3b3b3b3b4c3b303b6f4c3b434c4145432052455454454c2043494e55523b34453631,
0x3b3b3b3b3b4e3b3b3b3b3b4c3b303b6f4c3b4e4154532052455454454c2043494e55523b35453631,
0x3b3b3b3b3b4e3b3b3b3b3b4c3b303b6f4c3b52592d48434e4152422d474e4f4c2052455454454c2043494e55523b36453631,
0x3b3b3b3b3b4e3b3b3b3b3b4c3b303b6f4c3b52592d474957542d54524f48532052455454454c2043494e55523b37453631,
0x3b3b3b3b3b4e3b3b3b3b3b4c3b303b6f4c3b52592d4349444e414c4543492052455454454c2043494e55523b38453631,
0x3b3b3b3b3b4e3b3b3b3b3b4c3b303b6f4c3b512052455454454c2043494e55523b39453631,
0x3b3b3b3b3b4e3b3b3b3b3b4c3b303b6f4c3b582052455454454c2043494e55523b41453631,
0x3b3b3b3b3b4e3b3b3b3b3b4c3b303b6f503b4e4f4954415554434e555020454c474e49532043494e55523b42453631,
0x3b3b3b3b3b4e3b3b3b3b3b4c3b303b6f503b4e4f4954415554434e555020454c5049544c554d2043494e55523b43453631,
0x3b3b3b3b3b4e3b3b3b3b3b4c3b303b6f503b4e4f4954415554434e55502053534f52432043494e55523b44453631,
0x3b3b3b3b3b4e3b37313b3b3b3b4c3b303b6c4e3b4c4f424d5953204755414c52412043494e55523b45453631,
0x3b3b3b3b3b4e3b38313b3b3b3b4c3b303b6c4e3b4c4f424d595320525544414d4956542043494e55523b46453631,
0x3b3b3b3b3b4e3b39313b3b3b3b4c3b303b6c4e3b4c4f424d595320524f4854474c45422043494e55523b30463631,
0x3b3b3b3b3b4e3b3b3b3b3b4c3b303b6f4c3b4b2052455454454c2043494e55523b31463631,
0x3b3b3b3b3b4e3b3b3b3b3b4c3b303b6f4c3b48532052455454454c2043494e55523b32463631,
0x3b3b3b3b3b4e3b3b3b3b3b4c3b303b6f4c3b4f4f2052455454454c2043494e55523b33463631,
0x3b3b3b3b3b4e3b3b3b3b3b4c3b303b6f4c3b534f2054454b53414320534b4e4152462052455454454c2043494e55523b34463631,
0x3b3b3b3b3b4e3b3b3b3b3b4c3b303b6f4c3b53492054454b53414320534b4e4152462052455454454c2043494e55523b35463631,
0x3b3b3b3b3b4e3b3b3b3b3b4c3b303b6f4c3b48452054454b53414320534b4e4152462052455454454c2043494e55523b36463631,
0x3b3b3b3b3b4e3b3b3b3b3b4c3b303b6f4c3b43412054454b53414320534b4e4152462052455454454c2043494e55523b37463631,
0x3b3b3b3b3b4e3b3b3b3b3b4c3b303b6f4c3b435345412054454b53414320534b4e4152462052455454454c2043494e55523b38463631,
0x3b3b3b3b3b4e3b3b3b3b3b4c3b303b6f4c3b412052455454454c20474f4c414741543b30303731,
0x3b3b3b3b3b4e3b3b3b3b3b4c3b303b6f4c3b492052455454454c20474f4c414741543b31303731,
0x3b3b3b3b3b4e3b3b3b3b3b4c3b303b6f4c3b552052455454454c20474f4c414741543b32303731,
0x3b3b3b3b3b4e3b3b3b3b3b4c3b303b6f4c3b414b2052455454454c20474f4c414741543b33303731,
0x3b3b3b3b3b4e3b3b3b3b3b4c3b303b6f4c3b41472052455454454c20474f4c414741543b34303731,
0x3b3b3b3b3b4e3b3b3b3b3b4c3b303b6f4c3b41474e2052455454454c20474f4c414741543b35303731,
0x3b3b3b3b3b4e3b3b3b3b3b4c3b303b6f4c3b41542052455454454c20474f4c414741543b36303731,
0x3b3b3b3b3b4e3b3b3b3b3b4c3b303b6f4c3b41442052455454454c20474f4c414741543b37303731,
0x3b3b3b3b3b4e3b3b3b3b3b4c3b303b6f4c3b414e2052455454454c20474f4c414741543b38303731,
0x3b3b3b3b3b4e3b3b3b3b3b4c3b303b6f4c3b41502052455454454c20474f4c414741543b39303731,
0x3b3b3b3b3b4e3b3b3b3b3b4c3b303b6f4c3b41422052455454454c20474f4c414741543b41303731,
0x3b3b3b3b3b4e3b3b3b3b3b4c3b303b6f4c3b414d2052455454454c20474f4c414741543b42303731,
0x3b3b3b3b3b4e3b3b3b3b3b4c3b303b6f4c3b41592052455454454c20474f4c414741543b43303731,
0x3b3b3b3b3b4e3b3b3b3b3b4c3b303b6f4c3b414c2052455454454c20474f4c414741543b45303731,
0x3b3b3b3b3b4e3b3b3b3b3b4c3b303b6f4c3b41572052455454454c20474f4c414741543b46303731,
0x3b3b3b3b3b4e3b3b3b3b3b4c3b303b6f4c3b41532052455454454c20474f4c414741543b30313731,
0x3b3b3b3b3b4e3b3b3b3b3b4c3b303b6f4c3b41482052455454454c20474f4c414741543b31313731,
0x3b3b3b3b3b4e3b3b3b3b3b4d534e3b303b6e4d3b49204e474953204c45574f5620474f4c414741543b32313731,
0x3b3b3b3b3b4e3b3b3b3b3b4d534e3b303b6e4d3b55204e474953204c45574f5620474f4c414741543b33313731,
0x3b3b3b3b3b4e3b3b3b3b3b4d534e3b393b6e4d3b414d41524956204e47495320474f4c414741543b34313731,
0x3b3b3b3b3b4e3b3b3b3b3b4c3b303b6f4c3b412052455454454c204f4f4e554e41483b30323731,
0x3b3b3b3b3b4e3b3b3b3b3b4c3b303b6f4c3b492052455454454c204f4f4e554e41483b31323731,
0x3b3b3b3b3b4e3b3b3b3b3b4c3b303b6f4c3b552052455454454c204f4f4e554e41483b32323731,
0x3b3b3b3b3b4e3b3b3b3b3b4c3b303b6f4c3b414b2052455454454c204f4f4e554e41483b33323731,
0x3b3b3b3b3b4e3b3b3b3b3b4c3b303b6f4c3b41472052455454454c204f4f4e554e41483b34323731,
0x3b3b3b3b3b4e3b3b3b3b3b4c3b303b6f4c3b41474e2052455454454c204f4f4e554e41483b35323731,
0x3b3b3b3b3b4e3b3b3b3b3b4c3b303b6f4c3b41542052455454454c204f4f4e554e41483b36323731,
0x3b3b3b3b3b4e3b3b3b3b3b4c3b303b6f4c3b41442052455454454c204f4f4e554e41483b37323731,
0x3b3b3b3b3b4e3b3b3b3b3b4c3b303b6f4c3b414e2052455454454c204f4f4e554e41483b38323731,
0x3b3b3b3b3b4e3b3b3b3b3b4c3b303b6f4c3b41502052455454454c204f4f4e554e41483b39323731,
0x3b3b3b3b3b4e3b3b3b3b3b4c3b303b6f4c3b41422052455454454c204f4f4e554e41483b41323731,
0x3b3b3b3b3b4e3b3b3b3b3b4c3b303b6f4c3b414d2052455454454c204f4f4e554e41483b42323731,
0x3b3b3b3b3b4e3b3b3b3b3b4c3b303b6f4c3b41592052455454454c204f4f4e554e41483b43323731,
0x3b3b3b3b3b4e3b3b3b3b3b4c3b303b6f4c3b41522052455454454c204f4f4e554e41483b44323731,
0x3b3b3b3b3b4e3b3b3b3b3b4c3b303b6f4c3b414c2052455454454c204f4f4e554e41483b45323731,
0x3b3b3b3b3b4e3b3b3b3b3b4c3b303b6f4c3b41572052455454454c204f4f4e554e41483b46323731,
0x3b3b3b3b3b4e3b3b3b3b3b4c3b303b6f4c3b41532052455454454c204f4f4e554e41483b30333731,
0x3b3b3b3b3b4e3b3b3b3b3b4c3b303b6f4c3b41482052455454454c204f4f4e554e41483b31333731,
0x3b3b3b3b3b4e3b3b3b3b3b4d534e3b303b6e4d3b49204e474953204c45574f56204f4f4e554e41483b32333731,
0x3b3b3b3b3b4e3b3b3b3b3b4d534e3b303b6e4d3b55204e474953204c45574f56204f4f4e554e41483b33333731,
0x3b3b3b3b3b4e3b3b3b3b3b4d534e3b393b6e4d3b444f5044554d4150204e474953204f4f4e554e41483b34333731,
0x3b3b3b3b3b4e3b3b3b3b3b4c3b303b6f503b4e4f4954415554434e555020454c474e495320454e495050494c4948503b35333731,
0x3b3b3b3b3b4e3b3b3b3b3b4c3b303b6f503b4e4f4954415554434e555020454c42554f4420454e495050494c4948503b36333731,
0x3b3b3b3b3b4e3b3b3b3b3b4c3b303b6f4c3b412052455454454c2044494855423b30343731,
0x3b3b3b3b3b4e3b3b3b3b3b4c3b303b6f4c3b492052455454454c2044494855423b31343731,
0x3b3b3b3b3b4e3b3b3b3b3b4c3b303b6f4c3b552052455454454c2044494855423b32343731,
0x3b3b3b3b3b4e3b3b3b3b3b4c3b303b6f4c3b414b2052455454454c2044494855423b33343731,
0x3b3b3b3b3b4e3b3b3b3b3b4c3b303b6f4c3b41472052455454454c2044494855423b34343731,
0x3b3b3b3b3b4e3b3b3b3b3b4c3b303b6f4c3b41474e2052455454454c2044494855423b35343731,
0x3b3b3b3b3b4e3b3b3b3b3b4c3b303b6f4c3b41542052455454454c2044494855423b36343731,
0x3b3b3b3b3b4e3b3b3b3b3b4c3b303b6f4c3b41442052455454454c2044494855423b37343731,
0x3b3b3b3b3b4e3b3b3b3b3b4c3b303b6f4c3b414e2052455454454c2044494855423b38343731,
0x3b3b3b3b3b4e3b3b3b3b3b4c3b303b6f4c3b41502052455454454c2044494855423b39343731,
0x3b3b3b3b3b4e3b3b3b3b3b4c3b303b6f4c3b41422052455454454c2044494855423b41343731,
0x3b3b3b3b3b4e3b3b3b3b3b4c3b303b6f4c3b414d2052455454454c2044494855423b42343731,
0x3b3b3b3b3b4e3b3b3b3b3b4c3b303b6f4c3b41592052455454454c2044494855423b43343731,
0x3b3b3b3b3b4e3b3b3b3b3b4c3b303b6f4c3b41522052455454454c2044494855423b44343731,
0x3b3b3b3b3b4e3b3b3b3b3b4c3b303b6f4c3b414c2052455454454c2044494855423b45343731,
0x3b3b3b3b3b4e3b3b3b3b3b4c3b303b6f4c3b41572052455454454c2044494855423b46343731,
0x3b3b3b3b3b4e3b3b3b3b3b4c3b303b6f4c3b41532052455454454c2044494855423b30353731,
0x3b3b3b3b3b4e3b3b3b3b3b4c3b303b6f4c3b41482052455454454c2044494855423b31353731,
0x3b3b3b3b3b4e3b3b3b3b3b4d534e3b303b6e4d3b49204e474953204c45574f562044494855423b32353731,
0x3b3b3b3b3b4e3b3b3b3b3b4d534e3b303b6e4d3b55204e474953204c45574f562044494855423b33353731,
0x3b3b3b3b3b4e3b3b3b3b3b4c3b303b6f4c3b412052455454454c2041574e41424741543b30363731,
0x3b3b3b3b3b4e3b3b3b3b3b4c3b303b6f4c3b492052455454454c2041574e41424741543b31363731,
0x3b3b3b3b3b4e3b3b3b3b3b4c3b303b6f4c3b552052455454454c2041574e41424741543b32363731,
0x3b3b3b3b3b4e3b3b3b3b3b4c3b303b6f4c3b414b2052455454454c2041574e41424741543b33363731,
0x3b3b3b3b3b4e3b3b3b3b3b4c3b303b6f4c3b41472052455454454c2041574e41424741543b34363731,
0x3b3b3b3b3b4e3b3b3b3b3b4c3b303b6f4c3b41474e2052455454454c2041574e41424741543b35363731,
0x3b3b3b3b3b4e3b3b3b3b3b4c3b303b6f4c3b41542052455454454c2041574e41424741543b36363731,
0x3b3b3b3b3b4e3b3b3b3b3b4c3b303b6f4c3b41442052455454454c2041574e41424741543b37363731,
0x3b3b3b3b3b4e3b3b3b3b3b4c3b303b6f4c3b414e2052455454454c2041574e41424741543b38363731,
0x3b3b3b3b3b4e3b3b3b3b3b4c3b303b6f4c3b41502052455454454c2041574e41424741543b39363731,
0x3b3b3b3b3b4e3b3b3b3b3b4c3b303b6f4c3b41422052455454454c2041574e41424741543b41363731,
0x3b3b3b3b3b4e3b3b3b3b3b4c3b303b6f4c3b414d2052455454454c2041574e41424741543b42363731,
0x3b3b3b3b3b4e3b3b3b3b3b4c3b303b6f4c3b41592052455454454c2041574e41424741543b43363731,
0x3b3b3b3b3b4e3b3b3b3b3b4c3b303b6f4c3b414c2052455454454c2041574e41424741543b45363731,
0x3b3b3b3b3b4e3b3b3b3b3b4c3b303b6f4c3b41572052455454454c2041574e41424741543b46363731,
0x3b3b3b3b3b4e3b3b3b3b3b4c3b303b6f4c3b41532052455454454c2041574e41424741543b30373731,
0x3b3b3b3b3b4e3b3b3b3b3b4d534e3b303b6e4d3b49204e474953204c45574f562041574e41424741543b32373731,
0x3b3b3b3b3b4e3b3b3b3b3b4d534e3b303b6e4d3b55204e474953204c45574f562041574e41424741543b33373731,
0x3b3b3b3b3b4e3b3b3b3b3b4c3b303b6f4c3b414b2052455454454c2052454d484b3b30383731,
0x3b3b3b3b3b4e3b3b3b3b3b4c3b303b6f4c3b41484b2052455454454c2052454d484b3b31383731,
0x3b3b3b3b3b4e3b3b3b3b3b4c3b303b6f4c3b4f4b2052455454454c2052454d484b3b32383731,
0x3b3b3b3b3b4e3b3b3b3b3b4c3b303b6f4c3b4f484b2052455454454c2052454d484b3b33383731,
0x3b3b3b3b3b4e3b3b3b3b3b4c3b303b6f4c3b4f474e2052455454454c2052454d484b3b34383731,
0x3b3b3b3b3b4e3b3b3b3b3b4c3b303b6f4c3b41432052455454454c2052454d484b3b35383731,
0x3b3b3b3b3b4e3b3b3b3b3b4c3b303b6f4c3b4148432052455454454c2052454d484b3b36383731,
0x3b3b3b3b3b4e3b3b3b3b3b4c3b303b6f4c3b4f432052455454454c2052454d484b3b37383731,
0x3b3b3b3b3b4e3b3b3b3b3b4c3b303b6f4c3b4f48432052455454454c2052454d484b3b38383731,
0x3b3b3b3b3b4e3b3b3b3b3b4c3b303b6f4c3b4f594e2052455454454c2052454d484b3b39383731,
0x3b3b3b3b3b4e3b3b3b3b3b4c3b303b6f4c3b41442052455454454c2052454d484b3b41383731,
0x3b3b3b3b3b4e3b3b3b3b3b4c3b303b6f4c3b414854542052455454454c2052454d484b3b42383731,
0x3b3b3b3b3b4e3b3b3b3b3b4c3b303b6f4c3b4f442052455454454c2052454d484b3b43383731,
0x3b3b3b3b3b4e3b3b3b3b3b4c3b303b6f4c3b4f4854542052455454454c2052454d484b3b44383731,
0x3b3b3b3b3b4e3b3b3b3b3b4c3b303b6f4c3b4f4e4e2052455454454c2052454d484b3b45383731,
0x3b3b3b3b3b4e3b3b3b3b3b4c3b303b6f4c3b41542052455454454c2052454d484b3b46383731,
0x3b3b3b3b3b4e3b3b3b3b3b4c3b303b6f4c3b4148542052455454454c2052454d484b3b30393731,
0x3b3b3b3b3b4e3b3b3b3b3b4c3b303b6f4c3b4f542052455454454c2052454d484b3b31393731,
0x3b3b3b3b3b4e3b3b3b3b3b4c3b303b6f4c3b4f48542052455454454c2052454d484b3b32393731,
0x3b3b3b3b3b4e3b3b3b3b3b4c3b303b6f4c3b4f4e2052455454454c2052454d484b3b33393731,
0x3b3b3b3b3b4e3b3b3b3b3b4c3b303b6f4c3b41422052455454454c2052454d484b3b34393731,
0x3b3b3b3b3b4e3b3b3b3b3b4c3b303b6f4c3b4148502052455454454c2052454d484b3b35393731,
0x3b3b3b3b3b4e3b3b3b3b3b4c3b303b6f4c3b4f502052455454454c2052454d484b3b36393731,
0x3b3b3b3b3b4e3b3b3b3b3b4c3b303b6f4c3b4f48502052455454454c2052454d484b3b37393731,
0x3b3b3b3b3b4e3b3b3b3b3b4c3b303b6f4c3b4f4d2052455454454c2052454d484b3b38393731,
0x3b3b3b3b3b4e3b3b3b3b3b4c3b303b6f4c3b4f592052455454454c2052454d484b3b39393731,
0x3b3b3b3b3b4e3b3b3b3b3b4c3b303b6f4c3b4f522052455454454c2052454d484b3b41393731,
0x3b3b3b3b3b4e3b3b3b3b3b4c3b303b6f4c3b4f4c2052455454454c2052454d484b3b42393731,
0x3b3b3b3b3b4e3b3b3b3b3b4c3b303b6f4c3b4f562052455454454c2052454d484b3b43393731,
0x3b3b3b3b3b4e3b3b3b3b3b4c3b303b6f4c3b4148532052455454454c2052454d484b3b44393731,
0x3b3b3b3b3b4e3b3b3b3b3b4c3b303b6f4c3b4f53532052455454454c2052454d484b3b45393731,
0x3b3b3b3b3b4e3b3b3b3b3b4c3b303b6f4c3b41532052455454454c2052454d484b3b46393731,
0x3b3b3b3b3b4e3b3b3b3b3b4c3b303b6f4c3b41482052455454454c2052454d484b3b30413731,
0x3b3b3b3b3b4e3b3b3b3b3b4c3b303b6f4c3b414c2052455454454c2052454d484b3b31413731,
0x3b3b3b3b3b4e3b3b3b3b3b4c3b303b6f4c3b41512052455454454c2052454d484b3b32413731,
0x3b3b3b3b3b4e3b3b3b3b3b4c3b303b6f4c3b514151204c45574f5620544e45444e455045444e492052454d484b3b33413731,
0x3b3b3b3b3b4e3b3b3b3b3b4c3b303b6f4c3b414151204c45574f5620544e45444e455045444e492052454d484b3b34413731,
0x3b3b3b3b3b4e3b3b3b3b3b4c3b303b6f4c3b4951204c45574f5620544e45444e455045444e492052454d484b3b35413731,
0x3b3b3b3b3b4e3b3b3b3b3b4c3b303b6f4c3b494951204c45574f5620544e45444e455045444e492052454d484b3b36413731,
0x3b3b3b3b3b4e3b3b3b3b3b4c3b303b6f4c3b5551204c45574f5620544e45444e455045444e492052454d484b3b37413731,
0x3b3b3b3b3b4e3b3b3b3b3b4c3b303b6f4c3b4b5551204c45574f5620544e45444e455045444e492052454d484b3b38413731,
0x3b3b3b3b3b4e3b3b3b3b3b4c3b303b6f4c3b555551204c45574f5620544e45444e455045444e492052454d484b3b39413731,
0x3b3b3b3b3b4e3b3b3b3b3b4c3b303b6f4c3b56555551204c45574f5620544e45444e455045444e492052454d484b3b41413731,
0x3b3b3b3b3b4e3b3b3b3b3b4c3b303b6f4c3b5952204c45574f5620544e45444e455045444e492052454d484b3b42413731,
0x3b3b3b3b3b4e3b3b3b3b3b4c3b303b6f4c3b595952204c45574f5620544e45444e455045444e492052454d484b3b43413731,
0x3b3b3b3b3b4e3b3b3b3b3b4c3b303b6f4c3b594c204c45574f5620544e45444e455045444e492052454d484b3b44413731,
0x3b3b3b3b3b4e3b3b3b3b3b4c3b303b6f4c3b59594c204c45574f5620544e45444e455045444e492052454d484b3b45413731,
0x3b3b3b3b3b4e3b3b3b3b3b4c3b303b6f4c3b4551204c45574f5620544e45444e455045444e492052454d484b3b46413731,
0x3b3b3b3b3b4e3b3b3b3b3b4c3b303b6f4c3b494151204c45574f5620544e45444e455045444e492052454d484b3b30423731,
0x3b3b3b3b3b4e3b3b3b3b3b4c3b303b6f4c3b454e4f2045505954204f4f51204c45574f5620544e45444e455045444e492052454d484b3b31423731,
0x3b3b3b3b3b4e3b3b3b3b3b4c3b303b6f4c3b4f57542045505954204f4f51204c45574f5620544e45444e455045444e492052454d484b3b32423731,
0x3b3b3b3b3b4e3b3b3b3b3b4c3b303b6f4c3b554151204c45574f5620544e45444e455045444e492052454d484b3b33423731,
0x3b3b3b3b3b4e3b3b3b3b3b4d534e3b303b6e4d3b514120544e455245484e49204c45574f562052454d484b3b34423731,
0x3b3b3b3b3b4e3b3b3b3b3b4d534e3b303b6e4d3b414120544e455245484e49204c45574f562052454d484b3b35423731,
0x3b3b3b3b3b4e3b3b3b3b3b4c3b303b634d3b4141204e474953204c45574f562052454d484b3b36423731,
0x3b3b3b3b3b4e3b3b3b3b3b4d534e3b303b6e4d3b49204e474953204c45574f562052454d484b3b37423731,
0x3b3b3b3b3b4e3b3b3b3b3b4d534e3b303b6e4d3b4949204e474953204c45574f562052454d484b3b38423731,
0x3b3b3b3b3b4e3b3b3b3b3b4d534e3b303b6e4d3b59204e474953204c45574f562052454d484b3b39423731,
0x3b3b3b3b3b4e3b3b3b3b3b4d534e3b303b6e4d3b5959204e474953204c45574f562052454d484b3b41423731,
0x3b3b3b3b3b4e3b3b3b3b3b4d534e3b303b6e4d3b55204e474953204c45574f562052454d484b3b42423731,
0x3b3b3b3b3b4e3b3b3b3b3b4d534e3b303b6e4d3b5555204e474953204c45574f562052454d484b3b43423731,
0x3b3b3b3b3b4e3b3b3b3b3b4d534e3b303b6e4d3b4155204e474953204c45574f562052454d484b3b44423731,
0x3b3b3b3b3b4e3b3b3b3b3b4c3b303b634d3b454f204e474953204c45574f562052454d484b3b45423731,
0x3b3b3b3b3b4e3b3b3b3b3b4c3b303b634d3b4159204e474953204c45574f562052454d484b3b46423731,
0x3b3b3b3b3b4e3b3b3b3b3b4c3b303b634d3b4549204e474953204c45574f562052454d484b3b30433731,
0x3b3b3b3b3b4e3b3b3b3b3b4c3b303b634d3b45204e474953204c45574f562052454d484b3b31433731,
0x3b3b3b3b3b4e3b3b3b3b3b4c3b303b634d3b4541204e474953204c45574f562052454d484b3b32433731,
0x3b3b3b3b3b4e3b3b3b3b3b4c3b303b634d3b4941204e474953204c45574f562052454d484b3b33433731,
0x3b3b3b3b3b4e3b3b3b3b3b4c3b303b634d3b4f4f204e474953204c45574f562052454d484b3b34433731,
0x3b3b3b3b3b4e3b3b3b3b3b4c3b303b634d3b5541204e474953204c45574f562052454d484b3b35433731,
0x3b3b3b3b3b4e3b3b3b3b3b4d534e3b303b6e4d3b544948414b494e204e4749532052454d484b3b36433731,
0x3b3b3b3b3b4e3b3b3b3b3b4c3b303b634d3b4b554d48414552204e4749532052454d484b3b37433731,
0x3b3b3b3b3b4e3b3b3b3b3b4c3b303b634d3b55544e495041454c414b555559204e4749532052454d484b3b38433731,
0x3b3b3b3b3b4e3b3b3b3b3b4d534e3b303b6e4d3b4e414f54414b495355554d204e4749532052454d484b3b39433731,
0x3b3b3b3b3b4e3b3b3b3b3b4d534e3b303b6e4d3b50415349495254204e4749532052454d484b3b41433731,
0x3b3b3b3b3b4e3b3b3b3b3b4d534e3b303b6e4d3b434f544e4142204e4749532052454d484b3b42433731,
0x3b3b3b3b3b4e3b3b3b3b3b4d534e3b303b6e4d3b5441424f52204e4749532052454d484b3b43433731,
0x3b3b3b3b3b4e3b3b3b3b3b4d534e3b303b6e4d3b544149484b41444e414f54204e4749532052454d484b3b44433731,
0x3b3b3b3b3b4e3b3b3b3b3b4d534e3b303b6e4d3b544142414b414b204e4749532052454d484b3b45433731,
0x3b3b3b3b3b4e3b3b3b3b3b4d534e3b303b6e4d3b4144534841204e4749532052454d484b3b46433731,
0x3b3b3b3b3b4e3b3b3b3b3b4d534e3b303b6e4d3b41594e4e4153204b4f594d4153204e4749532052454d484b3b30443731,
0x3b3b3b3b3b4e3b3b3b3b3b4d534e3b303b6e4d3b4d4149524956204e4749532052454d484b3b31443731,
0x3b3b3b3b3b4e3b3b3b3b3b4d534e3b393b6e4d3b474e454f43204e4749532052454d484b3b32443731,
0x3b3b3b3b3b4e3b3b3b3b3b4d534e3b303b6e4d3b544153414d4148544142204e4749532052454d484b3b33443731,
0x3b3b3b3b3b4e3b3b3b3b3b4c3b303b6f503b4e41484b204e4749532052454d484b3b34443731,
0x3b3b3b3b3b4e3b3b3b3b3b4c3b303b6f503b4e41534f4f5949524142204e4749532052454d484b3b35443731,
0x3b3b3b3b3b4e3b3b3b3b3b4c3b303b6f503b4855554b204949502043554e4d4143204e4749532052454d484b3b36443731,
0x3b3b3b3b3b4e3b3b3b3b3b4c3b303b6d4c3b4f4f54204b454c204e4749532052454d484b3b37443731,
0x3b3b3b3b3b4e3b3b3b3b3b4c3b303b6f503b4c4159594542204e4749532052454d484b3b38443731,
0x3b3b3b3b3b4e3b3b3b3b3b4c3b303b6f503b4e41554d204b45414e4850204e4749532052454d484b3b39443731,
0x3b3b3b3b3b4e3b3b3b3b3b4c3b303b6f503b5455554d4f4f4b204e4749532052454d484b3b41443731,
0x3b3b3b3b3b4e3b3b3b3b3b54453b303b63533b4c454952204c4f424d59532059434e45525255432052454d484b3b42443731,
0x3b3b3b3b3b4e3b3b3b3b3b4c3b303b6f4c3b41594e4153414841524b415641204e4749532052454d484b3b43443731,
0x3b3b3b3b3b4e3b3b3b3b3b4d534e3b3033323b6e4d3b4e41434148545441204e4749532052454d484b3b44443731,
0x3b3b3b3b3b4e3b303b303b303b3b4c3b303b644e3b4f52455a2054494749442052454d484b3b30453731,
0x3b3b3b3b3b4e3b313b313b313b3b4c3b303b644e3b454e4f2054494749442052454d484b3b31453731,
0x3b3b3b3b3b4e3b323b323b323b3b4c3b303b644e3b4f57542054494749442052454d484b3b32453731,
0x3b3b3b3b3b4e3b333b333b333b3b4c3b303b644e3b45455248542054494749442052454d484b3b33453731,
0x3b3b3b3b3b4e3b343b343b343b3b4c3b303b644e3b52554f462054494749442052454d484b3b34453731,
0x3b3b3b3b3b4e3b353b353b353b3b4c3b303b644e3b455649462054494749442052454d484b3b35453731,
0x3b3b3b3b3b4e3b363b363b363b3b4c3b303b644e3b5849532054494749442052454d484b3b36453731,
0x3b3b3b3b3b4e3b373b373b373b3b4c3b303b644e3b4e455645532054494749442052454d484b3b37453731,
0x3b3b3b3b3b4e3b383b383b383b3b4c3b303b644e3b54484749452054494749442052454d484b3b38453731,
0x3b3b3b3b3b4e3b393b393b393b3b4c3b303b644e3b454e494e2054494749442052454d484b3b39453731,
0x3b3b3b3b3b4e3b303b3b3b3b4e4f3b303b6f4e3b4e4f53204b41545441204b454c204c4f424d59532052454d484b3b30463731,
0x3b3b3b3b3b4e3b313b3b3b3b4e4f3b303b6f4e3b594f554d204b41545441204b454c204c4f424d59532052454d484b3b31463731,
0x3b3b3b3b3b4e3b323b3b3b3b4e4f3b303b6f4e3b494950204b41545441204b454c204c4f424d59532052454d484b3b32463731,
0x3b3b3b3b3b4e3b333b3b3b3b4e4f3b303b6f4e3b494542204b41545441204b454c204c4f424d59532052454d484b3b33463731,
0x3b3b3b3b3b4e3b343b3b3b3b4e4f3b303b6f4e3b4e4f5542204b41545441204b454c204c4f424d59532052454d484b3b34463731,
0x3b3b3b3b3b4e3b353b3b3b3b4e4f3b303b6f4e3b4d415250204b41545441204b454c204c4f424d59532052454d484b3b35463731]

/-- src/u5e/props/UnicodeData.txt lines 5377-5632. -/
def rawUcd21 : List Nat := [
0x3b3b3b3b3b4e3b363b3b3b3b4e4f3b303b6f4e3b594f554d2d4d415250204b41545441204b454c204c4f424d59532052454d484b3b36463731,
0x3b3b3b3b3b4e3b373b3b3b3b4e4f3b303b6f4e3b4949502d4d415250204b41545441204b454c204c4f424d59532052454d484b3b37463731,
0x3b3b3b3b3b4e3b383b3b3b3b4e4f3b303b6f4e3b4945422d4d415250204b41545441204b454c204c4f424d59532052454d484b3b38463731,
0x3b3b3b3b3b4e3b393b3b3b3b4e4f3b303b6f4e3b4e4f55422d4d415250204b41545441204b454c204c4f424d59532052454d484b3b39463731,
0x3b3b3b3b3b4e3b3b3b3b3b4e4f3b303b6f503b4147524942204e41494c4f474e4f4d3b30303831,
0x3b3b3b3b3b4e3b3b3b3b3b4e4f3b303b6f503b53495350494c4c45204e41494c4f474e4f4d3b31303831,
0x3b3b3b3b3b4e3b3b3b3b3b4e4f3b303b6f503b414d4d4f43204e41494c4f474e4f4d3b32303831,
0x3b3b3b3b3b4e3b3b3b3b3b4e4f3b303b6f503b504f5453204c4c5546204e41494c4f474e4f4d3b33303831,
0x3b3b3b3b3b4e3b3b3b3b3b4e4f3b303b6f503b4e4f4c4f43204e41494c4f474e4f4d3b34303831,
0x3b3b3b3b3b4e3b3b3b3b3b4e4f3b303b6f503b53544f442052554f46204e41494c4f474e4f4d3b35303831,
0x3b3b3b3b3b4e3b3b3b3b3b4e4f3b303b64503b4e45485059482054464f53204f444f54204e41494c4f474e4f4d3b36303831,
0x3b3b3b3b3b4e3b3b3b3b3b4e4f3b303b6f503b52454b52414d20595241444e554f4220454c42414c4c59532045424953204e41494c4f474e4f4d3b37303831,
0x3b3b3b3b3b4e3b3b3b3b3b4e4f3b303b6f503b414d4d4f43205548434e414d204e41494c4f474e4f4d3b38303831,
0x3b3b3b3b3b4e3b3b3b3b3b4e4f3b303b6f503b504f5453204c4c5546205548434e414d204e41494c4f474e4f4d3b39303831,
0x3b3b3b3b3b4e3b3b3b3b3b4e4f3b303b6f503b55475552494e204e41494c4f474e4f4d3b41303831,
0x3b3b3b3b3b4e3b3b3b3b3b4d534e3b303b6e4d3b454e4f20524f5443454c4553204e4f495441495241562045455246204e41494c4f474e4f4d3b42303831,
0x3b3b3b3b3b4e3b3b3b3b3b4d534e3b303b6e4d3b4f575420524f5443454c4553204e4f495441495241562045455246204e41494c4f474e4f4d3b43303831,
0x3b3b3b3b3b4e3b3b3b3b3b4d534e3b303b6e4d3b454552485420524f5443454c4553204e4f495441495241562045455246204e41494c4f474e4f4d3b44303831,
0x3b3b3b3b3b4e3b3b3b3b3b4e423b303b66433b524f54415241504553204c45574f56204e41494c4f474e4f4d3b45303831,
0x3b3b3b3b3b4e3b303b303b303b3b4c3b303b644e3b4f52455a205449474944204e41494c4f474e4f4d3b30313831,
0x3b3b3b3b3b4e3b313b313b313b3b4c3b303b644e3b454e4f205449474944204e41494c4f474e4f4d3b31313831,
0x3b3b3b3b3b4e3b323b323b323b3b4c3b303b644e3b4f5754205449474944204e41494c4f474e4f4d3b32313831,
0x3b3b3b3b3b4e3b333b333b333b3b4c3b303b644e3b4545524854205449474944204e41494c4f474e4f4d3b33313831,
0x3b3b3b3b3b4e3b343b343b343b3b4c3b303b644e3b52554f46205449474944204e41494c4f474e4f4d3b34313831,
0x3b3b3b3b3b4e3b353b353b353b3b4c3b303b644e3b45564946205449474944204e41494c4f474e4f4d3b35313831,
0x3b3b3b3b3b4e3b363b363b363b3b4c3b303b644e3b584953205449474944204e41494c4f474e4f4d3b36313831,
0x3b3b3b3b3b4e3b373b373b373b3b4c3b303b644e3b4e45564553205449474944204e41494c4f474e4f4d3b37313831,
0x3b3b3b3b3b4e3b383b383b383b3b4c3b303b644e3b5448474945205449474944204e41494c4f474e4f4d3b38313831,
0x3b3b3b3b3b4e3b393b393b393b3b4c3b303b644e3b454e494e205449474944204e41494c4f474e4f4d3b39313831,
0x3b3b3b3b3b4e3b3b3b3b3b4c3b303b6f4c3b412052455454454c204e41494c4f474e4f4d3b30323831,
0x3b3b3b3b3b4e3b3b3b3b3b4c3b303b6f4c3b452052455454454c204e41494c4f474e4f4d3b31323831,
0x3b3b3b3b3b4e3b3b3b3b3b4c3b303b6f4c3b492052455454454c204e41494c4f474e4f4d3b32323831,
0x3b3b3b3b3b4e3b3b3b3b3b4c3b303b6f4c3b4f2052455454454c204e41494c4f474e4f4d3b33323831,
0x3b3b3b3b3b4e3b3b3b3b3b4c3b303b6f4c3b552052455454454c204e41494c4f474e4f4d3b34323831,
0x3b3b3b3b3b4e3b3b3b3b3b4c3b303b6f4c3b454f2052455454454c204e41494c4f474e4f4d3b35323831,
0x3b3b3b3b3b4e3b3b3b3b3b4c3b303b6f4c3b45552052455454454c204e41494c4f474e4f4d3b36323831,
0x3b3b3b3b3b4e3b3b3b3b3b4c3b303b6f4c3b45452052455454454c204e41494c4f474e4f4d3b37323831,
0x3b3b3b3b3b4e3b3b3b3b3b4c3b303b6f4c3b414e2052455454454c204e41494c4f474e4f4d3b38323831,
0x3b3b3b3b3b4e3b3b3b3b3b4c3b303b6f4c3b474e412052455454454c204e41494c4f474e4f4d3b39323831,
0x3b3b3b3b3b4e3b3b3b3b3b4c3b303b6f4c3b41422052455454454c204e41494c4f474e4f4d3b41323831,
0x3b3b3b3b3b4e3b3b3b3b3b4c3b303b6f4c3b41502052455454454c204e41494c4f474e4f4d3b42323831,
0x3b3b3b3b3b4e3b3b3b3b3b4c3b303b6f4c3b41512052455454454c204e41494c4f474e4f4d3b43323831,
0x3b3b3b3b3b4e3b3b3b3b3b4c3b303b6f4c3b41472052455454454c204e41494c4f474e4f4d3b44323831,
0x3b3b3b3b3b4e3b3b3b3b3b4c3b303b6f4c3b414d2052455454454c204e41494c4f474e4f4d3b45323831,
0x3b3b3b3b3b4e3b3b3b3b3b4c3b303b6f4c3b414c2052455454454c204e41494c4f474e4f4d3b46323831,
0x3b3b3b3b3b4e3b3b3b3b3b4c3b303b6f4c3b41532052455454454c204e41494c4f474e4f4d3b30333831,
0x3b3b3b3b3b4e3b3b3b3b3b4c3b303b6f4c3b4148532052455454454c204e41494c4f474e4f4d3b31333831,
0x3b3b3b3b3b4e3b3b3b3b3b4c3b303b6f4c3b41542052455454454c204e41494c4f474e4f4d3b32333831,
0x3b3b3b3b3b4e3b3b3b3b3b4c3b303b6f4c3b41442052455454454c204e41494c4f474e4f4d3b33333831,
0x3b3b3b3b3b4e3b3b3b3b3b4c3b303b6f4c3b4148432052455454454c204e41494c4f474e4f4d3b34333831,
0x3b3b3b3b3b4e3b3b3b3b3b4c3b303b6f4c3b414a2052455454454c204e41494c4f474e4f4d3b35333831,
0x3b3b3b3b3b4e3b3b3b3b3b4c3b303b6f4c3b41592052455454454c204e41494c4f474e4f4d3b36333831,
0x3b3b3b3b3b4e3b3b3b3b3b4c3b303b6f4c3b41522052455454454c204e41494c4f474e4f4d3b37333831,
0x3b3b3b3b3b4e3b3b3b3b3b4c3b303b6f4c3b41572052455454454c204e41494c4f474e4f4d3b38333831,
0x3b3b3b3b3b4e3b3b3b3b3b4c3b303b6f4c3b41462052455454454c204e41494c4f474e4f4d3b39333831,
0x3b3b3b3b3b4e3b3b3b3b3b4c3b303b6f4c3b414b2052455454454c204e41494c4f474e4f4d3b41333831,
0x3b3b3b3b3b4e3b3b3b3b3b4c3b303b6f4c3b41484b2052455454454c204e41494c4f474e4f4d3b42333831,
0x3b3b3b3b3b4e3b3b3b3b3b4c3b303b6f4c3b4153542052455454454c204e41494c4f474e4f4d3b43333831,
0x3b3b3b3b3b4e3b3b3b3b3b4c3b303b6f4c3b415a2052455454454c204e41494c4f474e4f4d3b44333831,
0x3b3b3b3b3b4e3b3b3b3b3b4c3b303b6f4c3b4141482052455454454c204e41494c4f474e4f4d3b45333831,
0x3b3b3b3b3b4e3b3b3b3b3b4c3b303b6f4c3b41525a2052455454454c204e41494c4f474e4f4d3b46333831,
0x3b3b3b3b3b4e3b3b3b3b3b4c3b303b6f4c3b41484c2052455454454c204e41494c4f474e4f4d3b30343831,
0x3b3b3b3b3b4e3b3b3b3b3b4c3b303b6f4c3b49485a2052455454454c204e41494c4f474e4f4d3b31343831,
0x3b3b3b3b3b4e3b3b3b3b3b4c3b303b6f4c3b4948432052455454454c204e41494c4f474e4f4d3b32343831,
0x3b3b3b3b3b4e3b3b3b3b3b4c3b303b6d4c3b4e474953204c45574f5620474e4f4c204f444f542052455454454c204e41494c4f474e4f4d3b33343831,
0x3b3b3b3b3b4e3b3b3b3b3b4c3b303b6f4c3b45204f444f542052455454454c204e41494c4f474e4f4d3b34343831,
0x3b3b3b3b3b4e3b3b3b3b3b4c3b303b6f4c3b49204f444f542052455454454c204e41494c4f474e4f4d3b35343831,
0x3b3b3b3b3b4e3b3b3b3b3b4c3b303b6f4c3b4f204f444f542052455454454c204e41494c4f474e4f4d3b36343831,
0x3b3b3b3b3b4e3b3b3b3b3b4c3b303b6f4c3b55204f444f542052455454454c204e41494c4f474e4f4d3b37343831,
0x3b3b3b3b3b4e3b3b3b3b3b4c3b303b6f4c3b454f204f444f542052455454454c204e41494c4f474e4f4d3b38343831,
0x3b3b3b3b3b4e3b3b3b3b3b4c3b303b6f4c3b4555204f444f542052455454454c204e41494c4f474e4f4d3b39343831,
0x3b3b3b3b3b4e3b3b3b3b3b4c3b303b6f4c3b474e41204f444f542052455454454c204e41494c4f474e4f4d3b41343831,
0x3b3b3b3b3b4e3b3b3b3b3b4c3b303b6f4c3b4142204f444f542052455454454c204e41494c4f474e4f4d3b42343831,
0x3b3b3b3b3b4e3b3b3b3b3b4c3b303b6f4c3b4150204f444f542052455454454c204e41494c4f474e4f4d3b43343831,
0x3b3b3b3b3b4e3b3b3b3b3b4c3b303b6f4c3b4151204f444f542052455454454c204e41494c4f474e4f4d3b44343831,
0x3b3b3b3b3b4e3b3b3b3b3b4c3b303b6f4c3b4147204f444f542052455454454c204e41494c4f474e4f4d3b45343831,
0x3b3b3b3b3b4e3b3b3b3b3b4c3b303b6f4c3b414d204f444f542052455454454c204e41494c4f474e4f4d3b46343831,
0x3b3b3b3b3b4e3b3b3b3b3b4c3b303b6f4c3b4154204f444f542052455454454c204e41494c4f474e4f4d3b30353831,
0x3b3b3b3b3b4e3b3b3b3b3b4c3b303b6f4c3b4144204f444f542052455454454c204e41494c4f474e4f4d3b31353831,
0x3b3b3b3b3b4e3b3b3b3b3b4c3b303b6f4c3b414843204f444f542052455454454c204e41494c4f474e4f4d3b32353831,
0x3b3b3b3b3b4e3b3b3b3b3b4c3b303b6f4c3b414a204f444f542052455454454c204e41494c4f474e4f4d3b33353831,
0x3b3b3b3b3b4e3b3b3b3b3b4c3b303b6f4c3b415354204f444f542052455454454c204e41494c4f474e4f4d3b34353831,
0x3b3b3b3b3b4e3b3b3b3b3b4c3b303b6f4c3b4159204f444f542052455454454c204e41494c4f474e4f4d3b35353831,
0x3b3b3b3b3b4e3b3b3b3b3b4c3b303b6f4c3b4157204f444f542052455454454c204e41494c4f474e4f4d3b36353831,
0x3b3b3b3b3b4e3b3b3b3b3b4c3b303b6f4c3b414b204f444f542052455454454c204e41494c4f474e4f4d3b37353831,
0x3b3b3b3b3b4e3b3b3b3b3b4c3b303b6f4c3b414147204f444f542052455454454c204e41494c4f474e4f4d3b38353831,
0x3b3b3b3b3b4e3b3b3b3b3b4c3b303b6f4c3b414148204f444f542052455454454c204e41494c4f474e4f4d3b39353831,
0x3b3b3b3b3b4e3b3b3b3b3b4c3b303b6f4c3b41494a204f444f542052455454454c204e41494c4f474e4f4d3b41353831,
0x3b3b3b3b3b4e3b3b3b3b3b4c3b303b6f4c3b41494e204f444f542052455454454c204e41494c4f474e4f4d3b42353831,
0x3b3b3b3b3b4e3b3b3b3b3b4c3b303b6f4c3b415a44204f444f542052455454454c204e41494c4f474e4f4d3b43353831,
0x3b3b3b3b3b4e3b3b3b3b3b4c3b303b6f4c3b4520454249532052455454454c204e41494c4f474e4f4d3b44353831,
0x3b3b3b3b3b4e3b3b3b3b3b4c3b303b6f4c3b4920454249532052455454454c204e41494c4f474e4f4d3b45353831,
0x3b3b3b3b3b4e3b3b3b3b3b4c3b303b6f4c3b594920454249532052455454454c204e41494c4f474e4f4d3b46353831,
0x3b3b3b3b3b4e3b3b3b3b3b4c3b303b6f4c3b455520454249532052455454454c204e41494c4f474e4f4d3b30363831,
0x3b3b3b3b3b4e3b3b3b3b3b4c3b303b6f4c3b5520454249532052455454454c204e41494c4f474e4f4d3b31363831,
0x3b3b3b3b3b4e3b3b3b3b3b4c3b303b6f4c3b474e4120454249532052455454454c204e41494c4f474e4f4d3b32363831,
0x3b3b3b3b3b4e3b3b3b3b3b4c3b303b6f4c3b414b20454249532052455454454c204e41494c4f474e4f4d3b33363831,
0x3b3b3b3b3b4e3b3b3b3b3b4c3b303b6f4c3b414720454249532052455454454c204e41494c4f474e4f4d3b34363831,
0x3b3b3b3b3b4e3b3b3b3b3b4c3b303b6f4c3b414820454249532052455454454c204e41494c4f474e4f4d3b35363831,
0x3b3b3b3b3b4e3b3b3b3b3b4c3b303b6f4c3b415020454249532052455454454c204e41494c4f474e4f4d3b36363831,
0x3b3b3b3b3b4e3b3b3b3b3b4c3b303b6f4c3b41485320454249532052455454454c204e41494c4f474e4f4d3b37363831,
0x3b3b3b3b3b4e3b3b3b3b3b4c3b303b6f4c3b415420454249532052455454454c204e41494c4f474e4f4d3b38363831,
0x3b3b3b3b3b4e3b3b3b3b3b4c3b303b6f4c3b414420454249532052455454454c204e41494c4f474e4f4d3b39363831,
0x3b3b3b3b3b4e3b3b3b3b3b4c3b303b6f4c3b414a20454249532052455454454c204e41494c4f474e4f4d3b41363831,
0x3b3b3b3b3b4e3b3b3b3b3b4c3b303b6f4c3b414620454249532052455454454c204e41494c4f474e4f4d3b42363831,
0x3b3b3b3b3b4e3b3b3b3b3b4c3b303b6f4c3b41414720454249532052455454454c204e41494c4f474e4f4d3b43363831,
0x3b3b3b3b3b4e3b3b3b3b3b4c3b303b6f4c3b41414820454249532052455454454c204e41494c4f474e4f4d3b44363831,
0x3b3b3b3b3b4e3b3b3b3b3b4c3b303b6f4c3b41535420454249532052455454454c204e41494c4f474e4f4d3b45363831,
0x3b3b3b3b3b4e3b3b3b3b3b4c3b303b6f4c3b415a20454249532052455454454c204e41494c4f474e4f4d3b46363831,
0x3b3b3b3b3b4e3b3b3b3b3b4c3b303b6f4c3b41415220454249532052455454454c204e41494c4f474e4f4d3b30373831,
0x3b3b3b3b3b4e3b3b3b3b3b4c3b303b6f4c3b41484320454249532052455454454c204e41494c4f474e4f4d3b31373831,
0x3b3b3b3b3b4e3b3b3b3b3b4c3b303b6f4c3b41485a20454249532052455454454c204e41494c4f474e4f4d3b32373831,
0x3b3b3b3b3b4e3b3b3b3b3b4c3b303b6f4c3b49205548434e414d2052455454454c204e41494c4f474e4f4d3b33373831,
0x3b3b3b3b3b4e3b3b3b3b3b4c3b303b6f4c3b414b205548434e414d2052455454454c204e41494c4f474e4f4d3b34373831,
0x3b3b3b3b3b4e3b3b3b3b3b4c3b303b6f4c3b4152205548434e414d2052455454454c204e41494c4f474e4f4d3b35373831,
0x3b3b3b3b3b4e3b3b3b3b3b4c3b303b6f4c3b4146205548434e414d2052455454454c204e41494c4f474e4f4d3b36373831,
0x3b3b3b3b3b4e3b3b3b3b3b4c3b303b6f4c3b41485a205548434e414d2052455454454c204e41494c4f474e4f4d3b37373831,
0x3b3b3b3b3b4e3b3b3b3b3b4c3b303b6f4c3b454e4f204152415653554e4120494c414720494c412052455454454c204e41494c4f474e4f4d3b30383831,
0x3b3b3b3b3b4e3b3b3b3b3b4c3b303b6f4c3b454e4f204147524153495620494c414720494c412052455454454c204e41494c4f474e4f4d3b31383831,
0x3b3b3b3b3b4e3b3b3b3b3b4c3b303b6f4c3b5552414d414420494c414720494c412052455454454c204e41494c4f474e4f4d3b32383831,
0x3b3b3b3b3b4e3b3b3b3b3b4c3b303b6f4c3b414d414441425520494c414720494c412052455454454c204e41494c4f474e4f4d3b33383831,
0x3b3b3b3b3b4e3b3b3b3b3b4c3b303b6f4c3b414d4144414255204445545245564e4920494c414720494c412052455454454c204e41494c4f474e4f4d3b34383831,
0x3b3b3b3b3b4e3b3b3b3b3b4d534e3b303b6e4d3b4144554c414220494c414720494c412052455454454c204e41494c4f474e4f4d3b35383831,
0x3b3b3b3b3b4e3b3b3b3b3b4d534e3b303b6e4d3b4144554c414220454552485420494c414720494c412052455454454c204e41494c4f474e4f4d3b36383831,
0x3b3b3b3b3b4e3b3b3b3b3b4c3b303b6f4c3b4120494c414720494c412052455454454c204e41494c4f474e4f4d3b37383831,
0x3b3b3b3b3b4e3b3b3b3b3b4c3b303b6f4c3b4920494c414720494c412052455454454c204e41494c4f474e4f4d3b38383831,
0x3b3b3b3b3b4e3b3b3b3b3b4c3b303b6f4c3b414b20494c414720494c412052455454454c204e41494c4f474e4f4d3b39383831,
0x3b3b3b3b3b4e3b3b3b3b3b4c3b303b6f4c3b41474e20494c414720494c412052455454454c204e41494c4f474e4f4d3b41383831,
0x3b3b3b3b3b4e3b3b3b3b3b4c3b303b6f4c3b414320494c414720494c412052455454454c204e41494c4f474e4f4d3b42383831,
0x3b3b3b3b3b4e3b3b3b3b3b4c3b303b6f4c3b41545420494c414720494c412052455454454c204e41494c4f474e4f4d3b43383831,
0x3b3b3b3b3b4e3b3b3b3b3b4c3b303b6f4c3b4148545420494c414720494c412052455454454c204e41494c4f474e4f4d3b44383831,
0x3b3b3b3b3b4e3b3b3b3b3b4c3b303b6f4c3b41444420494c414720494c412052455454454c204e41494c4f474e4f4d3b45383831,
0x3b3b3b3b3b4e3b3b3b3b3b4c3b303b6f4c3b414e4e20494c414720494c412052455454454c204e41494c4f474e4f4d3b46383831,
0x3b3b3b3b3b4e3b3b3b3b3b4c3b303b6f4c3b415420494c414720494c412052455454454c204e41494c4f474e4f4d3b30393831,
0x3b3b3b3b3b4e3b3b3b3b3b4c3b303b6f4c3b414420494c414720494c412052455454454c204e41494c4f474e4f4d3b31393831,
0x3b3b3b3b3b4e3b3b3b3b3b4c3b303b6f4c3b415020494c414720494c412052455454454c204e41494c4f474e4f4d3b32393831,
0x3b3b3b3b3b4e3b3b3b3b3b4c3b303b6f4c3b41485020494c414720494c412052455454454c204e41494c4f474e4f4d3b33393831,
0x3b3b3b3b3b4e3b3b3b3b3b4c3b303b6f4c3b41535320494c414720494c412052455454454c204e41494c4f474e4f4d3b34393831,
0x3b3b3b3b3b4e3b3b3b3b3b4c3b303b6f4c3b41485a20494c414720494c412052455454454c204e41494c4f474e4f4d3b35393831,
0x3b3b3b3b3b4e3b3b3b3b3b4c3b303b6f4c3b415a20494c414720494c412052455454454c204e41494c4f474e4f4d3b36393831,
0x3b3b3b3b3b4e3b3b3b3b3b4c3b303b6f4c3b484120494c414720494c412052455454454c204e41494c4f474e4f4d3b37393831,
0x3b3b3b3b3b4e3b3b3b3b3b4c3b303b6f4c3b415420494c414720494c41204f444f542052455454454c204e41494c4f474e4f4d3b38393831,
0x3b3b3b3b3b4e3b3b3b3b3b4c3b303b6f4c3b41485a20494c414720494c41204f444f542052455454454c204e41494c4f474e4f4d3b39393831,
0x3b3b3b3b3b4e3b3b3b3b3b4c3b303b6f4c3b41484720494c414720494c41205548434e414d2052455454454c204e41494c4f474e4f4d3b41393831,
0x3b3b3b3b3b4e3b3b3b3b3b4c3b303b6f4c3b41474e20494c414720494c41205548434e414d2052455454454c204e41494c4f474e4f4d3b42393831,
0x3b3b3b3b3b4e3b3b3b3b3b4c3b303b6f4c3b414320494c414720494c41205548434e414d2052455454454c204e41494c4f474e4f4d3b43393831,
0x3b3b3b3b3b4e3b3b3b3b3b4c3b303b6f4c3b41484a20494c414720494c41205548434e414d2052455454454c204e41494c4f474e4f4d3b44393831,
0x3b3b3b3b3b4e3b3b3b3b3b4c3b303b6f4c3b41545420494c414720494c41205548434e414d2052455454454c204e41494c4f474e4f4d3b45393831,
0x3b3b3b3b3b4e3b3b3b3b3b4c3b303b6f4c3b4148444420494c414720494c41205548434e414d2052455454454c204e41494c4f474e4f4d3b46393831,
0x3b3b3b3b3b4e3b3b3b3b3b4c3b303b6f4c3b415420494c414720494c41205548434e414d2052455454454c204e41494c4f474e4f4d3b30413831,
0x3b3b3b3b3b4e3b3b3b3b3b4c3b303b6f4c3b41484420494c414720494c41205548434e414d2052455454454c204e41494c4f474e4f4d3b31413831,
0x3b3b3b3b3b4e3b3b3b3b3b4c3b303b6f4c3b41535320494c414720494c41205548434e414d2052455454454c204e41494c4f474e4f4d3b32413831,
0x3b3b3b3b3b4e3b3b3b3b3b4c3b303b6f4c3b41594320494c414720494c41205548434e414d2052455454454c204e41494c4f474e4f4d3b33413831,
0x3b3b3b3b3b4e3b3b3b3b3b4c3b303b6f4c3b41485a20494c414720494c41205548434e414d2052455454454c204e41494c4f474e4f4d3b34413831,
0x3b3b3b3b3b4e3b3b3b3b3b4c3b303b6f4c3b415a20494c414720494c41205548434e414d2052455454454c204e41494c4f474e4f4d3b35413831,
0x3b3b3b3b3b4e3b3b3b3b3b4c3b303b6f4c3b5520464c414820494c414720494c412052455454454c204e41494c4f474e4f4d3b36413831,
0x3b3b3b3b3b4e3b3b3b3b3b4c3b303b6f4c3b415920464c414820494c414720494c412052455454454c204e41494c4f474e4f4d3b37413831,
0x3b3b3b3b3b4e3b3b3b3b3b4c3b303b6f4c3b41484220494c414720494c41205548434e414d2052455454454c204e41494c4f474e4f4d3b38413831,
0x3b3b3b3b3b4e3b3b3b3b3b4d534e3b3832323b6e4d3b41474c4147414420494c414720494c412052455454454c204e41494c4f474e4f4d3b39413831,
0x3b3b3b3b3b4e3b3b3b3b3b4c3b303b6f4c3b41484c20494c414720494c41205548434e414d2052455454454c204e41494c4f474e4f4d3b41413831,
0x3b3b3b3b3b4e3b3b3b3b3b4c3b303b6f4c3b594f2053434942414c4c5953204e414944414e41433b30423831,
0x3b3b3b3b3b4e3b3b3b3b3b4c3b303b6f4c3b59412053434942414c4c5953204e414944414e41433b31423831,
0x3b3b3b3b3b4e3b3b3b3b3b4c3b303b6f4c3b5941412053434942414c4c5953204e414944414e41433b32423831,
0x3b3b3b3b3b4e3b3b3b3b3b4c3b303b6f4c3b5941572053434942414c4c5953204e414944414e41433b33423831,
0x3b3b3b3b3b4e3b3b3b3b3b4c3b303b6f4c3b594f502053434942414c4c5953204e414944414e41433b34423831,
0x3b3b3b3b3b4e3b3b3b3b3b4c3b303b6f4c3b5941502053434942414c4c5953204e414944414e41433b35423831,
0x3b3b3b3b3b4e3b3b3b3b3b4c3b303b6f4c3b594f57502053434942414c4c5953204e414944414e41433b36423831,
0x3b3b3b3b3b4e3b3b3b3b3b4c3b303b6f4c3b5941542053434942414c4c5953204e414944414e41433b37423831,
0x3b3b3b3b3b4e3b3b3b3b3b4c3b303b6f4c3b59414b2053434942414c4c5953204e414944414e41433b38423831,
0x3b3b3b3b3b4e3b3b3b3b3b4c3b303b6f4c3b5941574b2053434942414c4c5953204e414944414e41433b39423831,
0x3b3b3b3b3b4e3b3b3b3b3b4c3b303b6f4c3b59414d2053434942414c4c5953204e414944414e41433b41423831,
0x3b3b3b3b3b4e3b3b3b3b3b4c3b303b6f4c3b594f4e2053434942414c4c5953204e414944414e41433b42423831,
0x3b3b3b3b3b4e3b3b3b3b3b4c3b303b6f4c3b59414e2053434942414c4c5953204e414944414e41433b43423831,
0x3b3b3b3b3b4e3b3b3b3b3b4c3b303b6f4c3b59414c2053434942414c4c5953204e414944414e41433b44423831,
0x3b3b3b3b3b4e3b3b3b3b3b4c3b303b6f4c3b594f532053434942414c4c5953204e414944414e41433b45423831,
0x3b3b3b3b3b4e3b3b3b3b3b4c3b303b6f4c3b5941532053434942414c4c5953204e414944414e41433b46423831,
0x3b3b3b3b3b4e3b3b3b3b3b4c3b303b6f4c3b594f48532053434942414c4c5953204e414944414e41433b30433831,
0x3b3b3b3b3b4e3b3b3b3b3b4c3b303b6f4c3b594148532053434942414c4c5953204e414944414e41433b31433831,
0x3b3b3b3b3b4e3b3b3b3b3b4c3b303b6f4c3b594f5748532053434942414c4c5953204e414944414e41433b32433831,
0x3b3b3b3b3b4e3b3b3b3b3b4c3b303b6f4c3b594f592053434942414c4c5953204e414944414e41433b33433831,
0x3b3b3b3b3b4e3b3b3b3b3b4c3b303b6f4c3b5941592053434942414c4c5953204e414944414e41433b34433831,
0x3b3b3b3b3b4e3b3b3b3b3b4c3b303b6f4c3b5941522053434942414c4c5953204e414944414e41433b35433831,
0x3b3b3b3b3b4e3b3b3b3b3b4c3b303b6f4c3b49574e2053434942414c4c5953204e414944414e41433b36433831,
0x3b3b3b3b3b4e3b3b3b3b3b4c3b303b6f4c3b49574e2059415742494a4f2053434942414c4c5953204e414944414e41433b37433831,
0x3b3b3b3b3b4e3b3b3b3b3b4c3b303b6f4c3b4949574e2053434942414c4c5953204e414944414e41433b38433831,
0x3b3b3b3b3b4e3b3b3b3b3b4c3b303b6f4c3b4949574e2059415742494a4f2053434942414c4c5953204e414944414e41433b39433831,
0x3b3b3b3b3b4e3b3b3b3b3b4c3b303b6f4c3b4f574e2053434942414c4c5953204e414944414e41433b41433831,
0x3b3b3b3b3b4e3b3b3b3b3b4c3b303b6f4c3b4f574e2059415742494a4f2053434942414c4c5953204e414944414e41433b42433831,
0x3b3b3b3b3b4e3b3b3b3b3b4c3b303b6f4c3b4f4f574e2053434942414c4c5953204e414944414e41433b43433831,
0x3b3b3b3b3b4e3b3b3b3b3b4c3b303b6f4c3b4f4f574e2059415742494a4f2053434942414c4c5953204e414944414e41433b44433831,
0x3b3b3b3b3b4e3b3b3b3b3b4c3b303b6f4c3b454557522053434942414c4c5953204e414944414e41433b45433831,
0x3b3b3b3b3b4e3b3b3b3b3b4c3b303b6f4c3b4957522053434942414c4c5953204e414944414e41433b46433831,
0x3b3b3b3b3b4e3b3b3b3b3b4c3b303b6f4c3b494957522053434942414c4c5953204e414944414e41433b30443831,
0x3b3b3b3b3b4e3b3b3b3b3b4c3b303b6f4c3b4f57522053434942414c4c5953204e414944414e41433b31443831,
0x3b3b3b3b3b4e3b3b3b3b3b4c3b303b6f4c3b4f4f57522053434942414c4c5953204e414944414e41433b32443831,
0x3b3b3b3b3b4e3b3b3b3b3b4c3b303b6f4c3b4157522053434942414c4c5953204e414944414e41433b33443831,
0x3b3b3b3b3b4e3b3b3b3b3b4c3b303b6f4c3b502059415742494a4f2053434942414c4c5953204e414944414e41433b34443831,
0x3b3b3b3b3b4e3b3b3b3b3b4c3b303b6f4c3b542059415742494a4f2053434942414c4c5953204e414944414e41433b35443831,
0x3b3b3b3b3b4e3b3b3b3b3b4c3b303b6f4c3b4b2059415742494a4f2053434942414c4c5953204e414944414e41433b36443831,
0x3b3b3b3b3b4e3b3b3b3b3b4c3b303b6f4c3b432059415742494a4f2053434942414c4c5953204e414944414e41433b37443831,
0x3b3b3b3b3b4e3b3b3b3b3b4c3b303b6f4c3b4d2059415742494a4f2053434942414c4c5953204e414944414e41433b38443831,
0x3b3b3b3b3b4e3b3b3b3b3b4c3b303b6f4c3b4e2059415742494a4f2053434942414c4c5953204e414944414e41433b39443831,
0x3b3b3b3b3b4e3b3b3b3b3b4c3b303b6f4c3b532059415742494a4f2053434942414c4c5953204e414944414e41433b41443831,
0x3b3b3b3b3b4e3b3b3b3b3b4c3b303b6f4c3b48532059415742494a4f2053434942414c4c5953204e414944414e41433b42443831,
0x3b3b3b3b3b4e3b3b3b3b3b4c3b303b6f4c3b57204e5245545341452053434942414c4c5953204e414944414e41433b43443831,
0x3b3b3b3b3b4e3b3b3b3b3b4c3b303b6f4c3b57204e5245545345572053434942414c4c5953204e414944414e41433b44443831,
0x3b3b3b3b3b4e3b3b3b3b3b4c3b303b6f4c3b474e4952204c4c414d53204c414e49462053434942414c4c5953204e414944414e41433b45443831,
0x3b3b3b3b3b4e3b3b3b3b3b4c3b303b6f4c3b544f4420444553494152204c414e49462053434942414c4c5953204e414944414e41433b46443831,
0x3b3b3b3b3b4e3b3b3b3b3b4c3b303b6f4c3b45575220454552432d522053434942414c4c5953204e414944414e41433b30453831,
0x3b3b3b3b3b4e3b3b3b3b3b4c3b303b6f4c3b4f4f4c20454552432d545345572053434942414c4c5953204e414944414e41433b31453831,
0x3b3b3b3b3b4e3b3b3b3b3b4c3b303b6f4c3b41414c20454552432d545345572053434942414c4c5953204e414944414e41433b32453831,
0x3b3b3b3b3b4e3b3b3b3b3b4c3b303b6f4c3b455748542053434942414c4c5953204e414944414e41433b33453831,
0x3b3b3b3b3b4e3b3b3b3b3b4c3b303b6f4c3b415748542053434942414c4c5953204e414944414e41433b34453831,
0x3b3b3b3b3b4e3b3b3b3b3b4c3b303b6f4c3b45574854542053434942414c4c5953204e414944414e41433b35453831,
0x3b3b3b3b3b4e3b3b3b3b3b4c3b303b6f4c3b4f4f4854542053434942414c4c5953204e414944414e41433b36453831,
0x3b3b3b3b3b4e3b3b3b3b3b4c3b303b6f4c3b41414854542053434942414c4c5953204e414944414e41433b37453831,
0x3b3b3b3b3b4e3b3b3b3b3b4c3b303b6f4c3b4557484c542053434942414c4c5953204e414944414e41433b38453831,
0x3b3b3b3b3b4e3b3b3b3b3b4c3b303b6f4c3b4f4f484c542053434942414c4c5953204e414944414e41433b39453831,
0x3b3b3b3b3b4e3b3b3b3b3b4c3b303b6f4c3b45574853204953495941532053434942414c4c5953204e414944414e41433b41453831,
0x3b3b3b3b3b4e3b3b3b3b3b4c3b303b6f4c3b4f4f4853204953495941532053434942414c4c5953204e414944414e41433b42453831,
0x3b3b3b3b3b4e3b3b3b3b3b4c3b303b6f4c3b4f4f48204953495941532053434942414c4c5953204e414944414e41433b43453831,
0x3b3b3b3b3b4e3b3b3b3b3b4c3b303b6f4c3b55574720524549525241432053434942414c4c5953204e414944414e41433b44453831,
0x3b3b3b3b3b4e3b3b3b3b3b4c3b303b6f4c3b45454720454e454420524549525241432053434942414c4c5953204e414944414e41433b45453831,
0x3b3b3b3b3b4e3b3b3b3b3b4c3b303b6f4c3b41414720524549525241432053434942414c4c5953204e414944414e41433b46453831,
0x3b3b3b3b3b4e3b3b3b3b3b4c3b303b6f4c3b41574720524549525241432053434942414c4c5953204e414944414e41433b30463831,
0x3b3b3b3b3b4e3b3b3b3b3b4c3b303b6f4c3b55554a204953495941532053434942414c4c5953204e414944414e41433b31463831,
0x3b3b3b3b3b4e3b3b3b3b3b4c3b303b6f4c3b41574a20524549525241432053434942414c4c5953204e414944414e41433b32463831,
0x3b3b3b3b3b4e3b3b3b3b3b4c3b303b6f4c3b4c20454e4544205245564145422053434942414c4c5953204e414944414e41433b33463831,
0x3b3b3b3b3b4e3b3b3b3b3b4c3b303b6f4c3b5220454e4544205245564145422053434942414c4c5953204e414944414e41433b34463831,
0x3b3b3b3b3b4e3b3b3b3b3b4c3b303b6f4c3b53204c41544e454420524549525241432053434942414c4c5953204e414944414e41433b35463831,
0x3b3b3b3b3b4e3b3b3b3b3b4c3b303b6f4c3b52455454454c20524549525241432d4c45574f562055424d494c3b30303931,
0x3b3b3b3b3b4e3b3b3b3b3b4c3b303b6f4c3b414b2052455454454c2055424d494c3b31303931,
0x3b3b3b3b3b4e3b3b3b3b3b4c3b303b6f4c3b41484b2052455454454c2055424d494c3b32303931,
0x3b3b3b3b3b4e3b3b3b3b3b4c3b303b6f4c3b41472052455454454c2055424d494c3b33303931,
0x3b3b3b3b3b4e3b3b3b3b3b4c3b303b6f4c3b4148472052455454454c2055424d494c3b34303931,
0x3b3b3b3b3b4e3b3b3b3b3b4c3b303b6f4c3b41474e2052455454454c2055424d494c3b35303931,
0x3b3b3b3b3b4e3b3b3b3b3b4c3b303b6f4c3b41432052455454454c2055424d494c3b36303931,
0x3b3b3b3b3b4e3b3b3b3b3b4c3b303b6f4c3b4148432052455454454c2055424d494c3b37303931,
0x3b3b3b3b3b4e3b3b3b3b3b4c3b303b6f4c3b414a2052455454454c2055424d494c3b38303931,
0x3b3b3b3b3b4e3b3b3b3b3b4c3b303b6f4c3b41484a2052455454454c2055424d494c3b39303931,
0x3b3b3b3b3b4e3b3b3b3b3b4c3b303b6f4c3b4e41592052455454454c2055424d494c3b41303931,
0x3b3b3b3b3b4e3b3b3b3b3b4c3b303b6f4c3b41542052455454454c2055424d494c3b42303931,
0x3b3b3b3b3b4e3b3b3b3b3b4c3b303b6f4c3b4148542052455454454c2055424d494c3b43303931,
0x3b3b3b3b3b4e3b3b3b3b3b4c3b303b6f4c3b41442052455454454c2055424d494c3b44303931,
0x3b3b3b3b3b4e3b3b3b3b3b4c3b303b6f4c3b4148442052455454454c2055424d494c3b45303931,
0x3b3b3b3b3b4e3b3b3b3b3b4c3b303b6f4c3b414e2052455454454c2055424d494c3b46303931,
0x3b3b3b3b3b4e3b3b3b3b3b4c3b303b6f4c3b41502052455454454c2055424d494c3b30313931,
0x3b3b3b3b3b4e3b3b3b3b3b4c3b303b6f4c3b4148502052455454454c2055424d494c3b31313931,
0x3b3b3b3b3b4e3b3b3b3b3b4c3b303b6f4c3b41422052455454454c2055424d494c3b32313931,
0x3b3b3b3b3b4e3b3b3b3b3b4c3b303b6f4c3b4148422052455454454c2055424d494c3b33313931,
0x3b3b3b3b3b4e3b3b3b3b3b4c3b303b6f4c3b414d2052455454454c2055424d494c3b34313931,
0x3b3b3b3b3b4e3b3b3b3b3b4c3b303b6f4c3b41592052455454454c2055424d494c3b35313931,
0x3b3b3b3b3b4e3b3b3b3b3b4c3b303b6f4c3b41522052455454454c2055424d494c3b36313931,
0x3b3b3b3b3b4e3b3b3b3b3b4c3b303b6f4c3b414c2052455454454c2055424d494c3b37313931,
0x3b3b3b3b3b4e3b3b3b3b3b4c3b303b6f4c3b41572052455454454c2055424d494c3b38313931,
0x3b3b3b3b3b4e3b3b3b3b3b4c3b303b6f4c3b4148532052455454454c2055424d494c3b39313931]

/-- src/u5e/props/UnicodeData.txt lines 5633-5888. -/
def rawUcd22 : List Nat := [
0x3b3b3b3b3b4e3b3b3b3b3b4c3b303b6f4c3b4153532052455454454c2055424d494c3b41313931,
0x3b3b3b3b3b4e3b3b3b3b3b4c3b303b6f4c3b41532052455454454c2055424d494c3b42313931,
0x3b3b3b3b3b4e3b3b3b3b3b4c3b303b6f4c3b41482052455454454c2055424d494c3b43313931,
0x3b3b3b3b3b4e3b3b3b3b3b4c3b303b6f4c3b4e4159472052455454454c2055424d494c3b44313931,
0x3b3b3b3b3b4e3b3b3b3b3b4c3b303b6f4c3b4152542052455454454c2055424d494c3b45313931,
0x3b3b3b3b3b4e3b3b3b3b3b4d534e3b303b6e4d3b41204e474953204c45574f562055424d494c3b30323931,
0x3b3b3b3b3b4e3b3b3b3b3b4d534e3b303b6e4d3b49204e474953204c45574f562055424d494c3b31323931,
0x3b3b3b3b3b4e3b3b3b3b3b4d534e3b303b6e4d3b55204e474953204c45574f562055424d494c3b32323931,
0x3b3b3b3b3b4e3b3b3b3b3b4c3b303b634d3b4545204e474953204c45574f562055424d494c3b33323931,
0x3b3b3b3b3b4e3b3b3b3b3b4c3b303b634d3b4941204e474953204c45574f562055424d494c3b34323931,
0x3b3b3b3b3b4e3b3b3b3b3b4c3b303b634d3b4f4f204e474953204c45574f562055424d494c3b35323931,
0x3b3b3b3b3b4e3b3b3b3b3b4c3b303b634d3b5541204e474953204c45574f562055424d494c3b36323931,
0x3b3b3b3b3b4e3b3b3b3b3b4d534e3b303b6e4d3b45204e474953204c45574f562055424d494c3b37323931,
0x3b3b3b3b3b4e3b3b3b3b3b4d534e3b303b6e4d3b4f204e474953204c45574f562055424d494c3b38323931,
0x3b3b3b3b3b4e3b3b3b3b3b4c3b303b634d3b41592052455454454c2044454e494f4a4255532055424d494c3b39323931,
0x3b3b3b3b3b4e3b3b3b3b3b4c3b303b634d3b41522052455454454c2044454e494f4a4255532055424d494c3b41323931,
0x3b3b3b3b3b4e3b3b3b3b3b4c3b303b634d3b41572052455454454c2044454e494f4a4255532055424d494c3b42323931,
0x3b3b3b3b3b4e3b3b3b3b3b4c3b303b634d3b414b2052455454454c204c4c414d532055424d494c3b30333931,
0x3b3b3b3b3b4e3b3b3b3b3b4c3b303b634d3b41474e2052455454454c204c4c414d532055424d494c3b31333931,
0x3b3b3b3b3b4e3b3b3b3b3b4d534e3b303b6e4d3b4152415653554e412052455454454c204c4c414d532055424d494c3b32333931,
0x3b3b3b3b3b4e3b3b3b3b3b4c3b303b634d3b41542052455454454c204c4c414d532055424d494c3b33333931,
0x3b3b3b3b3b4e3b3b3b3b3b4c3b303b634d3b414e2052455454454c204c4c414d532055424d494c3b34333931,
0x3b3b3b3b3b4e3b3b3b3b3b4c3b303b634d3b41502052455454454c204c4c414d532055424d494c3b35333931,
0x3b3b3b3b3b4e3b3b3b3b3b4c3b303b634d3b414d2052455454454c204c4c414d532055424d494c3b36333931,
0x3b3b3b3b3b4e3b3b3b3b3b4c3b303b634d3b41522052455454454c204c4c414d532055424d494c3b37333931,
0x3b3b3b3b3b4e3b3b3b3b3b4c3b303b634d3b414c2052455454454c204c4c414d532055424d494c3b38333931,
0x3b3b3b3b3b4e3b3b3b3b3b4d534e3b3232323b6e4d3b474e455248504b554d204e4749532055424d494c3b39333931,
0x3b3b3b3b3b4e3b3b3b3b3b4d534e3b3033323b6e4d3b474e455248504d454b204e4749532055424d494c3b41333931,
0x3b3b3b3b3b4e3b3b3b3b3b4d534e3b3032323b6e4d3b492d4153204e4749532055424d494c3b42333931,
0x3b3b3b3b3b4e3b3b3b3b3b4e4f3b303b6f533b4f4f4c204e4749532055424d494c3b30343931,
0x3b3b3b3b3b4e3b3b3b3b3b4e4f3b303b6f503b4b52414d204e4f4954414d414c4358452055424d494c3b34343931,
0x3b3b3b3b3b4e3b3b3b3b3b4e4f3b303b6f503b4b52414d204e4f4954534555512055424d494c3b35343931,
0x3b3b3b3b3b4e3b303b303b303b3b4c3b303b644e3b4f52455a2054494749442055424d494c3b36343931,
0x3b3b3b3b3b4e3b313b313b313b3b4c3b303b644e3b454e4f2054494749442055424d494c3b37343931,
0x3b3b3b3b3b4e3b323b323b323b3b4c3b303b644e3b4f57542054494749442055424d494c3b38343931,
0x3b3b3b3b3b4e3b333b333b333b3b4c3b303b644e3b45455248542054494749442055424d494c3b39343931,
0x3b3b3b3b3b4e3b343b343b343b3b4c3b303b644e3b52554f462054494749442055424d494c3b41343931,
0x3b3b3b3b3b4e3b353b353b353b3b4c3b303b644e3b455649462054494749442055424d494c3b42343931,
0x3b3b3b3b3b4e3b363b363b363b3b4c3b303b644e3b5849532054494749442055424d494c3b43343931,
0x3b3b3b3b3b4e3b373b373b373b3b4c3b303b644e3b4e455645532054494749442055424d494c3b44343931,
0x3b3b3b3b3b4e3b383b383b383b3b4c3b303b644e3b54484749452054494749442055424d494c3b45343931,
0x3b3b3b3b3b4e3b393b393b393b3b4c3b303b644e3b454e494e2054494749442055424d494c3b46343931,
0x3b3b3b3b3b4e3b3b3b3b3b4c3b303b6f4c3b414b2052455454454c20454c204941543b30353931,
0x3b3b3b3b3b4e3b3b3b3b3b4c3b303b6f4c3b41582052455454454c20454c204941543b31353931,
0x3b3b3b3b3b4e3b3b3b3b3b4c3b303b6f4c3b41474e2052455454454c20454c204941543b32353931,
0x3b3b3b3b3b4e3b3b3b3b3b4c3b303b6f4c3b4153542052455454454c20454c204941543b33353931,
0x3b3b3b3b3b4e3b3b3b3b3b4c3b303b6f4c3b41532052455454454c20454c204941543b34353931,
0x3b3b3b3b3b4e3b3b3b3b3b4c3b303b6f4c3b41592052455454454c20454c204941543b35353931,
0x3b3b3b3b3b4e3b3b3b3b3b4c3b303b6f4c3b41542052455454454c20454c204941543b36353931,
0x3b3b3b3b3b4e3b3b3b3b3b4c3b303b6f4c3b4148542052455454454c20454c204941543b37353931,
0x3b3b3b3b3b4e3b3b3b3b3b4c3b303b6f4c3b414c2052455454454c20454c204941543b38353931,
0x3b3b3b3b3b4e3b3b3b3b3b4c3b303b6f4c3b41502052455454454c20454c204941543b39353931,
0x3b3b3b3b3b4e3b3b3b3b3b4c3b303b6f4c3b4148502052455454454c20454c204941543b41353931,
0x3b3b3b3b3b4e3b3b3b3b3b4c3b303b6f4c3b414d2052455454454c20454c204941543b42353931,
0x3b3b3b3b3b4e3b3b3b3b3b4c3b303b6f4c3b41462052455454454c20454c204941543b43353931,
0x3b3b3b3b3b4e3b3b3b3b3b4c3b303b6f4c3b41562052455454454c20454c204941543b44353931,
0x3b3b3b3b3b4e3b3b3b3b3b4c3b303b6f4c3b41482052455454454c20454c204941543b45353931,
0x3b3b3b3b3b4e3b3b3b3b3b4c3b303b6f4c3b41512052455454454c20454c204941543b46353931,
0x3b3b3b3b3b4e3b3b3b3b3b4c3b303b6f4c3b41484b2052455454454c20454c204941543b30363931,
0x3b3b3b3b3b4e3b3b3b3b3b4c3b303b6f4c3b414853542052455454454c20454c204941543b31363931,
0x3b3b3b3b3b4e3b3b3b3b3b4c3b303b6f4c3b414e2052455454454c20454c204941543b32363931,
0x3b3b3b3b3b4e3b3b3b3b3b4c3b303b6f4c3b412052455454454c20454c204941543b33363931,
0x3b3b3b3b3b4e3b3b3b3b3b4c3b303b6f4c3b492052455454454c20454c204941543b34363931,
0x3b3b3b3b3b4e3b3b3b3b3b4c3b303b6f4c3b45452052455454454c20454c204941543b35363931,
0x3b3b3b3b3b4e3b3b3b3b3b4c3b303b6f4c3b48452052455454454c20454c204941543b36363931,
0x3b3b3b3b3b4e3b3b3b3b3b4c3b303b6f4c3b552052455454454c20454c204941543b37363931,
0x3b3b3b3b3b4e3b3b3b3b3b4c3b303b6f4c3b4f4f2052455454454c20454c204941543b38363931,
0x3b3b3b3b3b4e3b3b3b3b3b4c3b303b6f4c3b4f2052455454454c20454c204941543b39363931,
0x3b3b3b3b3b4e3b3b3b3b3b4c3b303b6f4c3b45552052455454454c20454c204941543b41363931,
0x3b3b3b3b3b4e3b3b3b3b3b4c3b303b6f4c3b452052455454454c20454c204941543b42363931,
0x3b3b3b3b3b4e3b3b3b3b3b4c3b303b6f4c3b4555412052455454454c20454c204941543b43363931,
0x3b3b3b3b3b4e3b3b3b3b3b4c3b303b6f4c3b49412052455454454c20454c204941543b44363931,
0x3b3b3b3b3b4e3b3b3b3b3b4c3b303b6f4c3b322d454e4f542052455454454c20454c204941543b30373931,
0x3b3b3b3b3b4e3b3b3b3b3b4c3b303b6f4c3b332d454e4f542052455454454c20454c204941543b31373931,
0x3b3b3b3b3b4e3b3b3b3b3b4c3b303b6f4c3b342d454e4f542052455454454c20454c204941543b32373931,
0x3b3b3b3b3b4e3b3b3b3b3b4c3b303b6f4c3b352d454e4f542052455454454c20454c204941543b33373931,
0x3b3b3b3b3b4e3b3b3b3b3b4c3b303b6f4c3b362d454e4f542052455454454c20454c204941543b34373931,
0x3b3b3b3b3b4e3b3b3b3b3b4c3b303b6f4c3b415120484749482052455454454c2045554c204941542057454e3b30383931,
0x3b3b3b3b3b4e3b3b3b3b3b4c3b303b6f4c3b415120574f4c2052455454454c2045554c204941542057454e3b31383931,
0x3b3b3b3b3b4e3b3b3b3b3b4c3b303b6f4c3b414b20484749482052455454454c2045554c204941542057454e3b32383931,
0x3b3b3b3b3b4e3b3b3b3b3b4c3b303b6f4c3b415820484749482052455454454c2045554c204941542057454e3b33383931,
0x3b3b3b3b3b4e3b3b3b3b3b4c3b303b6f4c3b41474e20484749482052455454454c2045554c204941542057454e3b34383931,
0x3b3b3b3b3b4e3b3b3b3b3b4c3b303b6f4c3b414b20574f4c2052455454454c2045554c204941542057454e3b35383931,
0x3b3b3b3b3b4e3b3b3b3b3b4c3b303b6f4c3b415820574f4c2052455454454c2045554c204941542057454e3b36383931,
0x3b3b3b3b3b4e3b3b3b3b3b4c3b303b6f4c3b41474e20574f4c2052455454454c2045554c204941542057454e3b37383931,
0x3b3b3b3b3b4e3b3b3b3b3b4c3b303b6f4c3b41535420484749482052455454454c2045554c204941542057454e3b38383931,
0x3b3b3b3b3b4e3b3b3b3b3b4c3b303b6f4c3b415320484749482052455454454c2045554c204941542057454e3b39383931,
0x3b3b3b3b3b4e3b3b3b3b3b4c3b303b6f4c3b415920484749482052455454454c2045554c204941542057454e3b41383931,
0x3b3b3b3b3b4e3b3b3b3b3b4c3b303b6f4c3b41535420574f4c2052455454454c2045554c204941542057454e3b42383931,
0x3b3b3b3b3b4e3b3b3b3b3b4c3b303b6f4c3b415320574f4c2052455454454c2045554c204941542057454e3b43383931,
0x3b3b3b3b3b4e3b3b3b3b3b4c3b303b6f4c3b415920574f4c2052455454454c2045554c204941542057454e3b44383931,
0x3b3b3b3b3b4e3b3b3b3b3b4c3b303b6f4c3b415420484749482052455454454c2045554c204941542057454e3b45383931,
0x3b3b3b3b3b4e3b3b3b3b3b4c3b303b6f4c3b41485420484749482052455454454c2045554c204941542057454e3b46383931,
0x3b3b3b3b3b4e3b3b3b3b3b4c3b303b6f4c3b414e20484749482052455454454c2045554c204941542057454e3b30393931,
0x3b3b3b3b3b4e3b3b3b3b3b4c3b303b6f4c3b415420574f4c2052455454454c2045554c204941542057454e3b31393931,
0x3b3b3b3b3b4e3b3b3b3b3b4c3b303b6f4c3b41485420574f4c2052455454454c2045554c204941542057454e3b32393931,
0x3b3b3b3b3b4e3b3b3b3b3b4c3b303b6f4c3b414e20574f4c2052455454454c2045554c204941542057454e3b33393931,
0x3b3b3b3b3b4e3b3b3b3b3b4c3b303b6f4c3b415020484749482052455454454c2045554c204941542057454e3b34393931,
0x3b3b3b3b3b4e3b3b3b3b3b4c3b303b6f4c3b41485020484749482052455454454c2045554c204941542057454e3b35393931,
0x3b3b3b3b3b4e3b3b3b3b3b4c3b303b6f4c3b414d20484749482052455454454c2045554c204941542057454e3b36393931,
0x3b3b3b3b3b4e3b3b3b3b3b4c3b303b6f4c3b415020574f4c2052455454454c2045554c204941542057454e3b37393931,
0x3b3b3b3b3b4e3b3b3b3b3b4c3b303b6f4c3b41485020574f4c2052455454454c2045554c204941542057454e3b38393931,
0x3b3b3b3b3b4e3b3b3b3b3b4c3b303b6f4c3b414d20574f4c2052455454454c2045554c204941542057454e3b39393931,
0x3b3b3b3b3b4e3b3b3b3b3b4c3b303b6f4c3b414620484749482052455454454c2045554c204941542057454e3b41393931,
0x3b3b3b3b3b4e3b3b3b3b3b4c3b303b6f4c3b415620484749482052455454454c2045554c204941542057454e3b42393931,
0x3b3b3b3b3b4e3b3b3b3b3b4c3b303b6f4c3b414c20484749482052455454454c2045554c204941542057454e3b43393931,
0x3b3b3b3b3b4e3b3b3b3b3b4c3b303b6f4c3b414620574f4c2052455454454c2045554c204941542057454e3b44393931,
0x3b3b3b3b3b4e3b3b3b3b3b4c3b303b6f4c3b415620574f4c2052455454454c2045554c204941542057454e3b45393931,
0x3b3b3b3b3b4e3b3b3b3b3b4c3b303b6f4c3b414c20574f4c2052455454454c2045554c204941542057454e3b46393931,
0x3b3b3b3b3b4e3b3b3b3b3b4c3b303b6f4c3b414820484749482052455454454c2045554c204941542057454e3b30413931,
0x3b3b3b3b3b4e3b3b3b3b3b4c3b303b6f4c3b414420484749482052455454454c2045554c204941542057454e3b31413931,
0x3b3b3b3b3b4e3b3b3b3b3b4c3b303b6f4c3b414220484749482052455454454c2045554c204941542057454e3b32413931,
0x3b3b3b3b3b4e3b3b3b3b3b4c3b303b6f4c3b414820574f4c2052455454454c2045554c204941542057454e3b33413931,
0x3b3b3b3b3b4e3b3b3b3b3b4c3b303b6f4c3b414420574f4c2052455454454c2045554c204941542057454e3b34413931,
0x3b3b3b3b3b4e3b3b3b3b3b4c3b303b6f4c3b414220574f4c2052455454454c2045554c204941542057454e3b35413931,
0x3b3b3b3b3b4e3b3b3b3b3b4c3b303b6f4c3b41564b20484749482052455454454c2045554c204941542057454e3b36413931,
0x3b3b3b3b3b4e3b3b3b3b3b4c3b303b6f4c3b41565820484749482052455454454c2045554c204941542057454e3b37413931,
0x3b3b3b3b3b4e3b3b3b3b3b4c3b303b6f4c3b41564b20574f4c2052455454454c2045554c204941542057454e3b38413931,
0x3b3b3b3b3b4e3b3b3b3b3b4c3b303b6f4c3b41565820574f4c2052455454454c2045554c204941542057454e3b39413931,
0x3b3b3b3b3b4e3b3b3b3b3b4c3b303b6f4c3b41555320484749482052455454454c2045554c204941542057454e3b41413931,
0x3b3b3b3b3b4e3b3b3b3b3b4c3b303b6f4c3b41555320574f4c2052455454454c2045554c204941542057454e3b42413931,
0x3b3b3b3b3b4e3b3b3b3b3b4c3b303b6f4c3b52454e4554524f4853204c45574f56204e474953204c45574f562045554c204941542057454e3b30423931,
0x3b3b3b3b3b4e3b3b3b3b3b4c3b303b6f4c3b4141204e474953204c45574f562045554c204941542057454e3b31423931,
0x3b3b3b3b3b4e3b3b3b3b3b4c3b303b6f4c3b4949204e474953204c45574f562045554c204941542057454e3b32423931,
0x3b3b3b3b3b4e3b3b3b3b3b4c3b303b6f4c3b55204e474953204c45574f562045554c204941542057454e3b33423931,
0x3b3b3b3b3b4e3b3b3b3b3b4c3b303b6f4c3b5555204e474953204c45574f562045554c204941542057454e3b34423931,
0x3b3b3b3b3b4e3b3b3b3b3b4c3b303b6f4c3b45204e474953204c45574f562045554c204941542057454e3b35423931,
0x3b3b3b3b3b4e3b3b3b3b3b4c3b303b6f4c3b4541204e474953204c45574f562045554c204941542057454e3b36423931,
0x3b3b3b3b3b4e3b3b3b3b3b4c3b303b6f4c3b4f204e474953204c45574f562045554c204941542057454e3b37423931,
0x3b3b3b3b3b4e3b3b3b3b3b4c3b303b6f4c3b414f204e474953204c45574f562045554c204941542057454e3b38423931,
0x3b3b3b3b3b4e3b3b3b3b3b4c3b303b6f4c3b4555204e474953204c45574f562045554c204941542057454e3b39423931,
0x3b3b3b3b3b4e3b3b3b3b3b4c3b303b6f4c3b5941204e474953204c45574f562045554c204941542057454e3b41423931,
0x3b3b3b3b3b4e3b3b3b3b3b4c3b303b6f4c3b594141204e474953204c45574f562045554c204941542057454e3b42423931,
0x3b3b3b3b3b4e3b3b3b3b3b4c3b303b6f4c3b5955204e474953204c45574f562045554c204941542057454e3b43423931,
0x3b3b3b3b3b4e3b3b3b3b3b4c3b303b6f4c3b594f204e474953204c45574f562045554c204941542057454e3b44423931,
0x3b3b3b3b3b4e3b3b3b3b3b4c3b303b6f4c3b59414f204e474953204c45574f562045554c204941542057454e3b45423931,
0x3b3b3b3b3b4e3b3b3b3b3b4c3b303b6f4c3b594555204e474953204c45574f562045554c204941542057454e3b46423931,
0x3b3b3b3b3b4e3b3b3b3b3b4c3b303b6f4c3b5949204e474953204c45574f562045554c204941542057454e3b30433931,
0x3b3b3b3b3b4e3b3b3b3b3b4c3b303b6f4c3b56204c414e49462052455454454c2045554c204941542057454e3b31433931,
0x3b3b3b3b3b4e3b3b3b3b3b4c3b303b6f4c3b474e204c414e49462052455454454c2045554c204941542057454e3b32433931,
0x3b3b3b3b3b4e3b3b3b3b3b4c3b303b6f4c3b4e204c414e49462052455454454c2045554c204941542057454e3b33433931,
0x3b3b3b3b3b4e3b3b3b3b3b4c3b303b6f4c3b4d204c414e49462052455454454c2045554c204941542057454e3b34433931,
0x3b3b3b3b3b4e3b3b3b3b3b4c3b303b6f4c3b4b204c414e49462052455454454c2045554c204941542057454e3b35433931,
0x3b3b3b3b3b4e3b3b3b3b3b4c3b303b6f4c3b44204c414e49462052455454454c2045554c204941542057454e3b36433931,
0x3b3b3b3b3b4e3b3b3b3b3b4c3b303b6f4c3b42204c414e49462052455454454c2045554c204941542057454e3b37433931,
0x3b3b3b3b3b4e3b3b3b3b3b4c3b303b6f4c3b312d4b52414d20454e4f542045554c204941542057454e3b38433931,
0x3b3b3b3b3b4e3b3b3b3b3b4c3b303b6f4c3b322d4b52414d20454e4f542045554c204941542057454e3b39433931,
0x3b3b3b3b3b4e3b303b303b303b3b4c3b303b644e3b4f52455a2054494749442045554c204941542057454e3b30443931,
0x3b3b3b3b3b4e3b313b313b313b3b4c3b303b644e3b454e4f2054494749442045554c204941542057454e3b31443931,
0x3b3b3b3b3b4e3b323b323b323b3b4c3b303b644e3b4f57542054494749442045554c204941542057454e3b32443931,
0x3b3b3b3b3b4e3b333b333b333b3b4c3b303b644e3b45455248542054494749442045554c204941542057454e3b33443931,
0x3b3b3b3b3b4e3b343b343b343b3b4c3b303b644e3b52554f462054494749442045554c204941542057454e3b34443931,
0x3b3b3b3b3b4e3b353b353b353b3b4c3b303b644e3b455649462054494749442045554c204941542057454e3b35443931,
0x3b3b3b3b3b4e3b363b363b363b3b4c3b303b644e3b5849532054494749442045554c204941542057454e3b36443931,
0x3b3b3b3b3b4e3b373b373b373b3b4c3b303b644e3b4e455645532054494749442045554c204941542057454e3b37443931,
0x3b3b3b3b3b4e3b383b383b383b3b4c3b303b644e3b54484749452054494749442045554c204941542057454e3b38443931,
0x3b3b3b3b3b4e3b393b393b393b3b4c3b303b644e3b454e494e2054494749442045554c204941542057454e3b39443931,
0x3b3b3b3b3b4e3b313b313b3b3b4c3b303b6f4e3b454e4f205449474944204d4148542045554c204941542057454e3b41443931,
0x3b3b3b3b3b4e3b3b3b3b3b4e4f3b303b6f533b45414c204e4749532045554c204941542057454e3b45443931,
0x3b3b3b3b3b4e3b3b3b3b3b4e4f3b303b6f533b5645414c204e4749532045554c204941542057454e3b46443931,
0x3b3b3b3b3b4e3b3b3b3b3b4e4f3b303b6f533b544153414d4148544150204c4f424d59532052454d484b3b30453931,
0x3b3b3b3b3b4e3b3b3b3b3b4e4f3b303b6f533b54454f4b20594f554d204c4f424d59532052454d484b3b31453931,
0x3b3b3b3b3b4e3b3b3b3b3b4e4f3b303b6f533b54454f4b20494950204c4f424d59532052454d484b3b32453931,
0x3b3b3b3b3b4e3b3b3b3b3b4e4f3b303b6f533b54454f4b20494542204c4f424d59532052454d484b3b33453931,
0x3b3b3b3b3b4e3b3b3b3b3b4e4f3b303b6f533b54454f4b204e4f5542204c4f424d59532052454d484b3b34453931,
0x3b3b3b3b3b4e3b3b3b3b3b4e4f3b303b6f533b54454f4b204d415250204c4f424d59532052454d484b3b35453931,
0x3b3b3b3b3b4e3b3b3b3b3b4e4f3b303b6f533b54454f4b20594f554d2d4d415250204c4f424d59532052454d484b3b36453931,
0x3b3b3b3b3b4e3b3b3b3b3b4e4f3b303b6f533b54454f4b204949502d4d415250204c4f424d59532052454d484b3b37453931,
0x3b3b3b3b3b4e3b3b3b3b3b4e4f3b303b6f533b54454f4b204945422d4d415250204c4f424d59532052454d484b3b38453931,
0x3b3b3b3b3b4e3b3b3b3b3b4e4f3b303b6f533b54454f4b204e4f55422d4d415250204c4f424d59532052454d484b3b39453931,
0x3b3b3b3b3b4e3b3b3b3b3b4e4f3b303b6f533b54454f4b20504144204c4f424d59532052454d484b3b41453931,
0x3b3b3b3b3b4e3b3b3b3b3b4e4f3b303b6f533b54454f4b20594f554d2d504144204c4f424d59532052454d484b3b42453931,
0x3b3b3b3b3b4e3b3b3b3b3b4e4f3b303b6f533b54454f4b204949502d504144204c4f424d59532052454d484b3b43453931,
0x3b3b3b3b3b4e3b3b3b3b3b4e4f3b303b6f533b54454f4b204945422d504144204c4f424d59532052454d484b3b44453931,
0x3b3b3b3b3b4e3b3b3b3b3b4e4f3b303b6f533b54454f4b204e4f55422d504144204c4f424d59532052454d484b3b45453931,
0x3b3b3b3b3b4e3b3b3b3b3b4e4f3b303b6f533b54454f4b204d4152502d504144204c4f424d59532052454d484b3b46453931,
0x3b3b3b3b3b4e3b3b3b3b3b4e4f3b303b6f533b544153415945545554204c4f424d59532052454d484b3b30463931,
0x3b3b3b3b3b4e3b3b3b3b3b4e4f3b303b6f533b434f5220594f554d204c4f424d59532052454d484b3b31463931,
0x3b3b3b3b3b4e3b3b3b3b3b4e4f3b303b6f533b434f5220494950204c4f424d59532052454d484b3b32463931,
0x3b3b3b3b3b4e3b3b3b3b3b4e4f3b303b6f533b434f5220494542204c4f424d59532052454d484b3b33463931,
0x3b3b3b3b3b4e3b3b3b3b3b4e4f3b303b6f533b434f52204e4f5542204c4f424d59532052454d484b3b34463931,
0x3b3b3b3b3b4e3b3b3b3b3b4e4f3b303b6f533b434f52204d415250204c4f424d59532052454d484b3b35463931,
0x3b3b3b3b3b4e3b3b3b3b3b4e4f3b303b6f533b434f5220594f554d2d4d415250204c4f424d59532052454d484b3b36463931,
0x3b3b3b3b3b4e3b3b3b3b3b4e4f3b303b6f533b434f52204949502d4d415250204c4f424d59532052454d484b3b37463931,
0x3b3b3b3b3b4e3b3b3b3b3b4e4f3b303b6f533b434f52204945422d4d415250204c4f424d59532052454d484b3b38463931,
0x3b3b3b3b3b4e3b3b3b3b3b4e4f3b303b6f533b434f52204e4f55422d4d415250204c4f424d59532052454d484b3b39463931,
0x3b3b3b3b3b4e3b3b3b3b3b4e4f3b303b6f533b434f5220504144204c4f424d59532052454d484b3b41463931,
0x3b3b3b3b3b4e3b3b3b3b3b4e4f3b303b6f533b434f5220594f554d2d504144204c4f424d59532052454d484b3b42463931,
0x3b3b3b3b3b4e3b3b3b3b3b4e4f3b303b6f533b434f52204949502d504144204c4f424d59532052454d484b3b43463931,
0x3b3b3b3b3b4e3b3b3b3b3b4e4f3b303b6f533b434f52204945422d504144204c4f424d59532052454d484b3b44463931,
0x3b3b3b3b3b4e3b3b3b3b3b4e4f3b303b6f533b434f52204e4f55422d504144204c4f424d59532052454d484b3b45463931,
0x3b3b3b3b3b4e3b3b3b3b3b4e4f3b303b6f533b434f52204d4152502d504144204c4f424d59532052454d484b3b46463931,
0x3b3b3b3b3b4e3b3b3b3b3b4c3b303b6f4c3b414b2052455454454c204553454e494755423b30304131,
0x3b3b3b3b3b4e3b3b3b3b3b4c3b303b6f4c3b41472052455454454c204553454e494755423b31304131,
0x3b3b3b3b3b4e3b3b3b3b3b4c3b303b6f4c3b41474e2052455454454c204553454e494755423b32304131,
0x3b3b3b3b3b4e3b3b3b3b3b4c3b303b6f4c3b414b474e2052455454454c204553454e494755423b33304131,
0x3b3b3b3b3b4e3b3b3b3b3b4c3b303b6f4c3b41502052455454454c204553454e494755423b34304131,
0x3b3b3b3b3b4e3b3b3b3b3b4c3b303b6f4c3b41422052455454454c204553454e494755423b35304131,
0x3b3b3b3b3b4e3b3b3b3b3b4c3b303b6f4c3b414d2052455454454c204553454e494755423b36304131,
0x3b3b3b3b3b4e3b3b3b3b3b4c3b303b6f4c3b41504d2052455454454c204553454e494755423b37304131,
0x3b3b3b3b3b4e3b3b3b3b3b4c3b303b6f4c3b41542052455454454c204553454e494755423b38304131,
0x3b3b3b3b3b4e3b3b3b3b3b4c3b303b6f4c3b41442052455454454c204553454e494755423b39304131,
0x3b3b3b3b3b4e3b3b3b3b3b4c3b303b6f4c3b414e2052455454454c204553454e494755423b41304131,
0x3b3b3b3b3b4e3b3b3b3b3b4c3b303b6f4c3b41524e2052455454454c204553454e494755423b42304131,
0x3b3b3b3b3b4e3b3b3b3b3b4c3b303b6f4c3b41432052455454454c204553454e494755423b43304131,
0x3b3b3b3b3b4e3b3b3b3b3b4c3b303b6f4c3b414a2052455454454c204553454e494755423b44304131,
0x3b3b3b3b3b4e3b3b3b3b3b4c3b303b6f4c3b41594e2052455454454c204553454e494755423b45304131,
0x3b3b3b3b3b4e3b3b3b3b3b4c3b303b6f4c3b4143594e2052455454454c204553454e494755423b46304131,
0x3b3b3b3b3b4e3b3b3b3b3b4c3b303b6f4c3b41592052455454454c204553454e494755423b30314131,
0x3b3b3b3b3b4e3b3b3b3b3b4c3b303b6f4c3b41522052455454454c204553454e494755423b31314131,
0x3b3b3b3b3b4e3b3b3b3b3b4c3b303b6f4c3b414c2052455454454c204553454e494755423b32314131,
0x3b3b3b3b3b4e3b3b3b3b3b4c3b303b6f4c3b41562052455454454c204553454e494755423b33314131,
0x3b3b3b3b3b4e3b3b3b3b3b4c3b303b6f4c3b41532052455454454c204553454e494755423b34314131,
0x3b3b3b3b3b4e3b3b3b3b3b4c3b303b6f4c3b412052455454454c204553454e494755423b35314131,
0x3b3b3b3b3b4e3b3b3b3b3b4c3b303b6f4c3b41482052455454454c204553454e494755423b36314131,
0x3b3b3b3b3b4e3b3b3b3b3b4d534e3b3033323b6e4d3b49204e474953204c45574f56204553454e494755423b37314131,
0x3b3b3b3b3b4e3b3b3b3b3b4d534e3b3032323b6e4d3b55204e474953204c45574f56204553454e494755423b38314131,
0x3b3b3b3b3b4e3b3b3b3b3b4c3b303b634d3b45204e474953204c45574f56204553454e494755423b39314131,
0x3b3b3b3b3b4e3b3b3b3b3b4c3b303b634d3b4f204e474953204c45574f56204553454e494755423b41314131,
0x3b3b3b3b3b4e3b3b3b3b3b4d534e3b303b6e4d3b4541204e474953204c45574f56204553454e494755423b42314131,
0x3b3b3b3b3b4e3b3b3b3b3b4c3b303b6f503b4157414c4c4150204553454e494755423b45314131,
0x3b3b3b3b3b4e3b3b3b3b3b4c3b303b6f503b4e4f495443455320464f20444e45204553454e494755423b46314131,
0x3b3b3b3b3b4e3b3b3b3b3b4c3b303b6f4c3b414b20484749482052455454454c204d414854204941543b30324131,
0x3b3b3b3b3b4e3b3b3b3b3b4c3b303b6f4c3b41484b20484749482052455454454c204d414854204941543b31324131,
0x3b3b3b3b3b4e3b3b3b3b3b4c3b303b6f4c3b41584b20484749482052455454454c204d414854204941543b32324131,
0x3b3b3b3b3b4e3b3b3b3b3b4c3b303b6f4c3b414b20574f4c2052455454454c204d414854204941543b33324131,
0x3b3b3b3b3b4e3b3b3b3b3b4c3b303b6f4c3b41584b20574f4c2052455454454c204d414854204941543b34324131,
0x3b3b3b3b3b4e3b3b3b3b3b4c3b303b6f4c3b41484b20574f4c2052455454454c204d414854204941543b35324131,
0x3b3b3b3b3b4e3b3b3b3b3b4c3b303b6f4c3b41474e2052455454454c204d414854204941543b36324131,
0x3b3b3b3b3b4e3b3b3b3b3b4c3b303b6f4c3b414320484749482052455454454c204d414854204941543b37324131,
0x3b3b3b3b3b4e3b3b3b3b3b4c3b303b6f4c3b41484320484749482052455454454c204d414854204941543b38324131,
0x3b3b3b3b3b4e3b3b3b3b3b4c3b303b6f4c3b414320574f4c2052455454454c204d414854204941543b39324131,
0x3b3b3b3b3b4e3b3b3b3b3b4c3b303b6f4c3b415320574f4c2052455454454c204d414854204941543b41324131,
0x3b3b3b3b3b4e3b3b3b3b3b4c3b303b6f4c3b41484320574f4c2052455454454c204d414854204941543b42324131,
0x3b3b3b3b3b4e3b3b3b3b3b4c3b303b6f4c3b41594e2052455454454c204d414854204941543b43324131,
0x3b3b3b3b3b4e3b3b3b3b3b4c3b303b6f4c3b415441522052455454454c204d414854204941543b44324131,
0x3b3b3b3b3b4e3b3b3b3b3b4c3b303b6f4c3b414854415220484749482052455454454c204d414854204941543b45324131,
0x3b3b3b3b3b4e3b3b3b3b3b4c3b303b6f4c3b41442052455454454c204d414854204941543b46324131,
0x3b3b3b3b3b4e3b3b3b3b3b4c3b303b6f4c3b414854415220574f4c2052455454454c204d414854204941543b30334131,
0x3b3b3b3b3b4e3b3b3b3b3b4c3b303b6f4c3b414e41522052455454454c204d414854204941543b31334131,
0x3b3b3b3b3b4e3b3b3b3b3b4c3b303b6f4c3b415420484749482052455454454c204d414854204941543b32334131,
0x3b3b3b3b3b4e3b3b3b3b3b4c3b303b6f4c3b41485420484749482052455454454c204d414854204941543b33334131,
0x3b3b3b3b3b4e3b3b3b3b3b4c3b303b6f4c3b415420574f4c2052455454454c204d414854204941543b34334131,
0x3b3b3b3b3b4e3b3b3b3b3b4c3b303b6f4c3b41485420574f4c2052455454454c204d414854204941543b35334131,
0x3b3b3b3b3b4e3b3b3b3b3b4c3b303b6f4c3b414e2052455454454c204d414854204941543b36334131,
0x3b3b3b3b3b4e3b3b3b3b3b4c3b303b6f4c3b41422052455454454c204d414854204941543b37334131,
0x3b3b3b3b3b4e3b3b3b3b3b4c3b303b6f4c3b415020484749482052455454454c204d414854204941543b38334131,
0x3b3b3b3b3b4e3b3b3b3b3b4c3b303b6f4c3b41485020484749482052455454454c204d414854204941543b39334131,
0x3b3b3b3b3b4e3b3b3b3b3b4c3b303b6f4c3b414620484749482052455454454c204d414854204941543b41334131,
0x3b3b3b3b3b4e3b3b3b3b3b4c3b303b6f4c3b415020574f4c2052455454454c204d414854204941543b42334131,
0x3b3b3b3b3b4e3b3b3b3b3b4c3b303b6f4c3b414620574f4c2052455454454c204d414854204941543b43334131,
0x3b3b3b3b3b4e3b3b3b3b3b4c3b303b6f4c3b41485020574f4c2052455454454c204d414854204941543b44334131,
0x3b3b3b3b3b4e3b3b3b3b3b4c3b303b6f4c3b414d2052455454454c204d414854204941543b45334131,
0x3b3b3b3b3b4e3b3b3b3b3b4c3b303b6f4c3b415920574f4c2052455454454c204d414854204941543b46334131,
0x3b3b3b3b3b4e3b3b3b3b3b4c3b303b6f4c3b415920484749482052455454454c204d414854204941543b30344131,
0x3b3b3b3b3b4e3b3b3b3b3b4c3b303b6f4c3b41522052455454454c204d414854204941543b31344131]

/-- src/u5e/props/UnicodeData.txt lines 5889-6144. -/
def rawUcd23 : List Nat := [
0x3b3b3b3b3b4e3b3b3b3b3b4c3b303b6f4c3b4555522052455454454c204d414854204941543b32344131,
0x3b3b3b3b3b4e3b3b3b3b3b4c3b303b6f4c3b414c2052455454454c204d414854204941543b33344131,
0x3b3b3b3b3b4e3b3b3b3b3b4c3b303b6f4c3b45554c2052455454454c204d414854204941543b34344131,
0x3b3b3b3b3b4e3b3b3b3b3b4c3b303b6f4c3b41572052455454454c204d414854204941543b35344131,
0x3b3b3b3b3b4e3b3b3b3b3b4c3b303b6f4c3b41485320484749482052455454454c204d414854204941543b36344131,
0x3b3b3b3b3b4e3b3b3b3b3b4c3b303b6f4c3b41535320484749482052455454454c204d414854204941543b37344131,
0x3b3b3b3b3b4e3b3b3b3b3b4c3b303b6f4c3b415320484749482052455454454c204d414854204941543b38344131,
0x3b3b3b3b3b4e3b3b3b3b3b4c3b303b6f4c3b414820484749482052455454454c204d414854204941543b39344131,
0x3b3b3b3b3b4e3b3b3b3b3b4c3b303b6f4c3b414c4c2052455454454c204d414854204941543b41344131,
0x3b3b3b3b3b4e3b3b3b3b3b4c3b303b6f4c3b412052455454454c204d414854204941543b42344131,
0x3b3b3b3b3b4e3b3b3b3b3b4c3b303b6f4c3b414820574f4c2052455454454c204d414854204941543b43344131,
0x3b3b3b3b3b4e3b3b3b3b3b4c3b303b6f4c3b492052455454454c204d414854204941543b44344131,
0x3b3b3b3b3b4e3b3b3b3b3b4c3b303b6f4c3b49492052455454454c204d414854204941543b45344131,
0x3b3b3b3b3b4e3b3b3b3b3b4c3b303b6f4c3b552052455454454c204d414854204941543b46344131,
0x3b3b3b3b3b4e3b3b3b3b3b4c3b303b6f4c3b55552052455454454c204d414854204941543b30354131,
0x3b3b3b3b3b4e3b3b3b3b3b4c3b303b6f4c3b45452052455454454c204d414854204941543b31354131,
0x3b3b3b3b3b4e3b3b3b3b3b4c3b303b6f4c3b4f4f2052455454454c204d414854204941543b32354131,
0x3b3b3b3b3b4e3b3b3b3b3b4c3b303b6f4c3b45414c2052455454454c204d414854204941543b33354131,
0x3b3b3b3b3b4e3b3b3b3b3b4c3b303b6f4c3b41532054414552472052455454454c204d414854204941543b34354131,
0x3b3b3b3b3b4e3b3b3b3b3b4c3b303b634d3b4152204c414944454d204e47495320544e414e4f534e4f43204d414854204941543b35354131,
0x3b3b3b3b3b4e3b3b3b3b3b4d534e3b303b6e4d3b414c204c414944454d204e47495320544e414e4f534e4f43204d414854204941543b36354131,
0x3b3b3b3b3b4e3b3b3b3b3b4c3b303b634d3b49414c20474e415420414c204e47495320544e414e4f534e4f43204d414854204941543b37354131,
0x3b3b3b3b3b4e3b3b3b3b3b4d534e3b303b6e4d3b49414c20474e414b2049414d204e474953204d414854204941543b38354131,
0x3b3b3b3b3b4e3b3b3b3b3b4d534e3b303b6e4d3b41474e204c414e4946204e47495320544e414e4f534e4f43204d414854204941543b39354131,
0x3b3b3b3b3b4e3b3b3b3b3b4d534e3b303b6e4d3b415020574f4c204e47495320544e414e4f534e4f43204d414854204941543b41354131,
0x3b3b3b3b3b4e3b3b3b3b3b4d534e3b303b6e4d3b415020574f4c20524f2041485441522048474948204e47495320544e414e4f534e4f43204d414854204941543b42354131,
0x3b3b3b3b3b4e3b3b3b3b3b4d534e3b303b6e4d3b414d204e47495320544e414e4f534e4f43204d414854204941543b43354131,
0x3b3b3b3b3b4e3b3b3b3b3b4d534e3b303b6e4d3b4142204e47495320544e414e4f534e4f43204d414854204941543b44354131,
0x3b3b3b3b3b4e3b3b3b3b3b4d534e3b303b6e4d3b4153204e47495320544e414e4f534e4f43204d414854204941543b45354131,
0x3b3b3b3b3b4e3b3b3b3b3b4d534e3b393b6e4d3b544f4b4153204e474953204d414854204941543b30364131,
0x3b3b3b3b3b4e3b3b3b3b3b4c3b303b634d3b41204e474953204c45574f56204d414854204941543b31364131,
0x3b3b3b3b3b4e3b3b3b3b3b4d534e3b303b6e4d3b5441532049414d204e474953204c45574f56204d414854204941543b32364131,
0x3b3b3b3b3b4e3b3b3b3b3b4c3b303b634d3b4141204e474953204c45574f56204d414854204941543b33364131,
0x3b3b3b3b3b4e3b3b3b3b3b4c3b303b634d3b4141204c4c4154204e474953204c45574f56204d414854204941543b34364131,
0x3b3b3b3b3b4e3b3b3b3b3b4d534e3b303b6e4d3b49204e474953204c45574f56204d414854204941543b35364131,
0x3b3b3b3b3b4e3b3b3b3b3b4d534e3b303b6e4d3b4949204e474953204c45574f56204d414854204941543b36364131,
0x3b3b3b3b3b4e3b3b3b3b3b4d534e3b303b6e4d3b4555204e474953204c45574f56204d414854204941543b37364131,
0x3b3b3b3b3b4e3b3b3b3b3b4d534e3b303b6e4d3b455555204e474953204c45574f56204d414854204941543b38364131,
0x3b3b3b3b3b4e3b3b3b3b3b4d534e3b303b6e4d3b55204e474953204c45574f56204d414854204941543b39364131,
0x3b3b3b3b3b4e3b3b3b3b3b4d534e3b303b6e4d3b5555204e474953204c45574f56204d414854204941543b41364131,
0x3b3b3b3b3b4e3b3b3b3b3b4d534e3b303b6e4d3b4f204e474953204c45574f56204d414854204941543b42364131,
0x3b3b3b3b3b4e3b3b3b3b3b4d534e3b303b6e4d3b574f4c454220414f204e474953204c45574f56204d414854204941543b43364131,
0x3b3b3b3b3b4e3b3b3b3b3b4c3b303b634d3b594f204e474953204c45574f56204d414854204941543b44364131,
0x3b3b3b3b3b4e3b3b3b3b3b4c3b303b634d3b45204e474953204c45574f56204d414854204941543b45364131,
0x3b3b3b3b3b4e3b3b3b3b3b4c3b303b634d3b4541204e474953204c45574f56204d414854204941543b46364131,
0x3b3b3b3b3b4e3b3b3b3b3b4c3b303b634d3b4f4f204e474953204c45574f56204d414854204941543b30374131,
0x3b3b3b3b3b4e3b3b3b3b3b4c3b303b634d3b4941204e474953204c45574f56204d414854204941543b31374131,
0x3b3b3b3b3b4e3b3b3b3b3b4c3b303b634d3b4941204d414854204e474953204c45574f56204d414854204941543b32374131,
0x3b3b3b3b3b4e3b3b3b3b3b4d534e3b303b6e4d3b45564f424120414f204e474953204c45574f56204d414854204941543b33374131,
0x3b3b3b3b3b4e3b3b3b3b3b4d534e3b303b6e4d3b474e414b2049414d204e474953204d414854204941543b34374131,
0x3b3b3b3b3b4e3b3b3b3b3b4d534e3b3033323b6e4d3b312d454e4f54204e474953204d414854204941543b35374131,
0x3b3b3b3b3b4e3b3b3b3b3b4d534e3b3033323b6e4d3b322d454e4f54204e474953204d414854204941543b36374131,
0x3b3b3b3b3b4e3b3b3b3b3b4d534e3b3033323b6e4d3b332d454e4f54204e4555484b204e474953204d414854204941543b37374131,
0x3b3b3b3b3b4e3b3b3b3b3b4d534e3b3033323b6e4d3b342d454e4f54204e4555484b204e474953204d414854204941543b38374131,
0x3b3b3b3b3b4e3b3b3b3b3b4d534e3b3033323b6e4d3b352d454e4f54204e4555484b204e474953204d414854204941543b39374131,
0x3b3b3b3b3b4e3b3b3b3b3b4d534e3b3033323b6e4d3b4d414148204152204e474953204d414854204941543b41374131,
0x3b3b3b3b3b4e3b3b3b3b3b4d534e3b3033323b6e4d3b4d41532049414d204e474953204d414854204941543b42374131,
0x3b3b3b3b3b4e3b3b3b3b3b4d534e3b3033323b6e4d3b4e4152414b2045554c2d4e4555484b204e474953204d414854204941543b43374131,
0x3b3b3b3b3b4e3b3b3b3b3b4d534e3b3032323b6e4d3b544f442043494d4d4152474f545059524320474e494e49424d4f43204d414854204941543b46374131,
0x3b3b3b3b3b4e3b303b303b303b3b4c3b303b644e3b4f52455a2054494749442041524f48204d414854204941543b30384131,
0x3b3b3b3b3b4e3b313b313b313b3b4c3b303b644e3b454e4f2054494749442041524f48204d414854204941543b31384131,
0x3b3b3b3b3b4e3b323b323b323b3b4c3b303b644e3b4f57542054494749442041524f48204d414854204941543b32384131,
0x3b3b3b3b3b4e3b333b333b333b3b4c3b303b644e3b45455248542054494749442041524f48204d414854204941543b33384131,
0x3b3b3b3b3b4e3b343b343b343b3b4c3b303b644e3b52554f462054494749442041524f48204d414854204941543b34384131,
0x3b3b3b3b3b4e3b353b353b353b3b4c3b303b644e3b455649462054494749442041524f48204d414854204941543b35384131,
0x3b3b3b3b3b4e3b363b363b363b3b4c3b303b644e3b5849532054494749442041524f48204d414854204941543b36384131,
0x3b3b3b3b3b4e3b373b373b373b3b4c3b303b644e3b4e455645532054494749442041524f48204d414854204941543b37384131,
0x3b3b3b3b3b4e3b383b383b383b3b4c3b303b644e3b54484749452054494749442041524f48204d414854204941543b38384131,
0x3b3b3b3b3b4e3b393b393b393b3b4c3b303b644e3b454e494e2054494749442041524f48204d414854204941543b39384131,
0x3b3b3b3b3b4e3b303b303b303b3b4c3b303b644e3b4f52455a205449474944204d414854204d414854204941543b30394131,
0x3b3b3b3b3b4e3b313b313b313b3b4c3b303b644e3b454e4f205449474944204d414854204d414854204941543b31394131,
0x3b3b3b3b3b4e3b323b323b323b3b4c3b303b644e3b4f5754205449474944204d414854204d414854204941543b32394131,
0x3b3b3b3b3b4e3b333b333b333b3b4c3b303b644e3b4545524854205449474944204d414854204d414854204941543b33394131,
0x3b3b3b3b3b4e3b343b343b343b3b4c3b303b644e3b52554f46205449474944204d414854204d414854204941543b34394131,
0x3b3b3b3b3b4e3b353b353b353b3b4c3b303b644e3b45564946205449474944204d414854204d414854204941543b35394131,
0x3b3b3b3b3b4e3b363b363b363b3b4c3b303b644e3b584953205449474944204d414854204d414854204941543b36394131,
0x3b3b3b3b3b4e3b373b373b373b3b4c3b303b644e3b4e45564553205449474944204d414854204d414854204941543b37394131,
0x3b3b3b3b3b4e3b383b383b383b3b4c3b303b644e3b5448474945205449474944204d414854204d414854204941543b38394131,
0x3b3b3b3b3b4e3b393b393b393b3b4c3b303b644e3b454e494e205449474944204d414854204d414854204941543b39394131,
0x3b3b3b3b3b4e3b3b3b3b3b4c3b303b6f503b474e414957204e474953204d414854204941543b30414131,
0x3b3b3b3b3b4e3b3b3b3b3b4c3b303b6f503b4b414157474e414957204e474953204d414854204941543b31414131,
0x3b3b3b3b3b4e3b3b3b3b3b4c3b303b6f503b4e41574153204e474953204d414854204941543b32414131,
0x3b3b3b3b3b4e3b3b3b3b3b4c3b303b6f503b574f454b204e474953204d414854204941543b33414131,
0x3b3b3b3b3b4e3b3b3b3b3b4c3b303b6f503b594f48204e474953204d414854204941543b34414131,
0x3b3b3b3b3b4e3b3b3b3b3b4c3b303b6f503b49414d4b4f44204e474953204d414854204941543b35414131,
0x3b3b3b3b3b4e3b3b3b3b3b4c3b303b6f503b414e41522044455441544f52204445535245564552204e474953204d414854204941543b36414131,
0x3b3b3b3b3b4e3b3b3b3b3b4c3b303b6d4c3b4b4f4d41592049414d204e474953204d414854204941543b37414131,
0x3b3b3b3b3b4e3b3b3b3b3b4c3b303b6f503b4e41414b204e474953204d414854204941543b38414131,
0x3b3b3b3b3b4e3b3b3b3b3b4c3b303b6f503b55554b4e41414b204e474953204d414854204941543b39414131,
0x3b3b3b3b3b4e3b3b3b3b3b4c3b303b6f503b4e41414b544153204e474953204d414854204941543b41414131,
0x3b3b3b3b3b4e3b3b3b3b3b4c3b303b6f503b55554b4e41414b544153204e474953204d414854204941543b42414131,
0x3b3b3b3b3b4e3b3b3b3b3b4c3b303b6f503b474e4148204e474953204d414854204941543b43414131,
0x3b3b3b3b3b4e3b3b3b3b3b4c3b303b6f503b474e414143204e474953204d414854204941543b44414131,
0x3b3b3b3b3b4e3b3b3b3b3b4d534e3b3033323b6e4d3b544e454343412058454c464d55435249432044454c42554f4420474e494e49424d4f433b30424131,
0x3b3b3b3b3b4e3b3b3b3b3b4d534e3b3033323b6e4d3b474e49522d53495345524541494420474e494e49424d4f433b31424131,
0x3b3b3b3b3b4e3b3b3b3b3b4d534e3b3033323b6e4d3b5954494e49464e4920474e494e49424d4f433b32424131,
0x3b3b3b3b3b4e3b3b3b3b3b4d534e3b3033323b6e4d3b574f5252412053445241574e574f4420474e494e49424d4f433b33424131,
0x3b3b3b3b3b4e3b3b3b3b3b4d534e3b3033323b6e4d3b544f4420454c5049525420474e494e49424d4f433b34424131,
0x3b3b3b3b3b4e3b3b3b3b3b4d534e3b3032323b6e4d3b574f4c454220582d5820474e494e49424d4f433b35424131,
0x3b3b3b3b3b4e3b3b3b3b3b4d534e3b3032323b6e4d3b574f4c454220454e494c20594c4747495720474e494e49424d4f433b36424131,
0x3b3b3b3b3b4e3b3b3b3b3b4d534e3b3032323b6e4d3b574f4c4542204b52414d204e45504f20474e494e49424d4f433b37424131,
0x3b3b3b3b3b4e3b3b3b3b3b4d534e3b3032323b6e4d3b574f4c4542204b52414d204e45504f20454c42554f4420474e494e49424d4f433b38424131,
0x3b3b3b3b3b4e3b3b3b3b3b4d534e3b3032323b6e4d3b574f4c454220454b4f525453204e4f4954415a494c4152544e454320544847494c20474e494e49424d4f433b39424131,
0x3b3b3b3b3b4e3b3b3b3b3b4d534e3b3032323b6e4d3b574f4c454220454b4f525453204e4f4954415a494c4152544e454320474e4f52545320474e494e49424d4f433b41424131,
0x3b3b3b3b3b4e3b3b3b3b3b4d534e3b3033323b6e4d3b45564f4241205345534548544e4552415020474e494e49424d4f433b42424131,
0x3b3b3b3b3b4e3b3b3b3b3b4d534e3b3033323b6e4d3b45564f4241205345534548544e4552415020454c42554f4420474e494e49424d4f433b43424131,
0x3b3b3b3b3b4e3b3b3b3b3b4d534e3b3032323b6e4d3b574f4c4542205345534548544e4552415020474e494e49424d4f433b44424131,
0x3b3b3b3b3b4e3b3b3b3b3b4d534e3b303b654d3b59414c5245564f205345534548544e4552415020474e494e49424d4f433b45424131,
0x3b3b3b3b3b4e3b3b3b3b3b4d534e3b303b6e4d3b4d4543495220554c55204e474953204553454e494c41423b30304231,
0x3b3b3b3b3b4e3b3b3b3b3b4d534e3b303b6e4d3b4152444e414320554c55204e474953204553454e494c41423b31304231,
0x3b3b3b3b3b4e3b3b3b3b3b4d534e3b303b6e4d3b4b45434543204e474953204553454e494c41423b32304231,
0x3b3b3b3b3b4e3b3b3b3b3b4d534e3b303b6e4d3b474e41525553204e474953204553454e494c41423b33304231,
0x3b3b3b3b3b4e3b3b3b3b3b4c3b303b634d3b4841534942204e474953204553454e494c41423b34304231,
0x3b3b3b3b3b4e3b3b3b3b3b4c3b303b6f4c3b4152414b412052455454454c204553454e494c41423b35304231,
0x3b3b3b3b3b4e3b3b3b3b3533423120353042313b4c3b303b6f4c3b474e55444554204152414b412052455454454c204553454e494c41423b36304231,
0x3b3b3b3b3b4e3b3b3b3b3b4c3b303b6f4c3b4152414b492052455454454c204553454e494c41423b37304231,
0x3b3b3b3b3b4e3b3b3b3b3533423120373042313b4c3b303b6f4c3b474e55444554204152414b492052455454454c204553454e494c41423b38304231,
0x3b3b3b3b3b4e3b3b3b3b3b4c3b303b6f4c3b4152414b552052455454454c204553454e494c41423b39304231,
0x3b3b3b3b3b4e3b3b3b3b3533423120393042313b4c3b303b6f4c3b474e55444554204152414b552052455454454c204553454e494c41423b41304231,
0x3b3b3b3b3b4e3b3b3b3b3b4c3b303b6f4c3b415045522041522052455454454c204553454e494c41423b42304231,
0x3b3b3b3b3b4e3b3b3b3b3533423120423042313b4c3b303b6f4c3b474e5544455420415045522041522052455454454c204553454e494c41423b43304231,
0x3b3b3b3b3b4e3b3b3b3b3b4c3b303b6f4c3b41474e454c20414c2052455454454c204553454e494c41423b44304231,
0x3b3b3b3b3b4e3b3b3b3b3533423120443042313b4c3b303b6f4c3b474e554445542041474e454c20414c2052455454454c204553454e494c41423b45304231,
0x3b3b3b3b3b4e3b3b3b3b3b4c3b303b6f4c3b4152414b452052455454454c204553454e494c41423b46304231,
0x3b3b3b3b3b4e3b3b3b3b3b4c3b303b6f4c3b4152414b49412052455454454c204553454e494c41423b30314231,
0x3b3b3b3b3b4e3b3b3b3b3b4c3b303b6f4c3b4152414b4f2052455454454c204553454e494c41423b31314231,
0x3b3b3b3b3b4e3b3b3b3b3533423120313142313b4c3b303b6f4c3b474e55444554204152414b4f2052455454454c204553454e494c41423b32314231,
0x3b3b3b3b3b4e3b3b3b3b3b4c3b303b6f4c3b414b2052455454454c204553454e494c41423b33314231,
0x3b3b3b3b3b4e3b3b3b3b3b4c3b303b6f4c3b414e4152504148414d20414b2052455454454c204553454e494c41423b34314231,
0x3b3b3b3b3b4e3b3b3b3b3b4c3b303b6f4c3b41472052455454454c204553454e494c41423b35314231,
0x3b3b3b3b3b4e3b3b3b3b3b4c3b303b6f4c3b41524f472041472052455454454c204553454e494c41423b36314231,
0x3b3b3b3b3b4e3b3b3b3b3b4c3b303b6f4c3b41474e2052455454454c204553454e494c41423b37314231,
0x3b3b3b3b3b4e3b3b3b3b3b4c3b303b6f4c3b41432052455454454c204553454e494c41423b38314231,
0x3b3b3b3b3b4e3b3b3b3b3b4c3b303b6f4c3b4143414c2041432052455454454c204553454e494c41423b39314231,
0x3b3b3b3b3b4e3b3b3b3b3b4c3b303b6f4c3b414a2052455454454c204553454e494c41423b41314231,
0x3b3b3b3b3b4e3b3b3b3b3b4c3b303b6f4c3b4152454a20414a2052455454454c204553454e494c41423b42314231,
0x3b3b3b3b3b4e3b3b3b3b3b4c3b303b6f4c3b41594e2052455454454c204553454e494c41423b43314231,
0x3b3b3b3b3b4e3b3b3b3b3b4c3b303b6f4c3b4b4954414c2041542052455454454c204553454e494c41423b44314231,
0x3b3b3b3b3b4e3b3b3b3b3b4c3b303b6f4c3b414e4152504148414d20414452554d2041542052455454454c204553454e494c41423b45314231,
0x3b3b3b3b3b4e3b3b3b3b3b4c3b303b6f4c3b414e41525041504c4120414452554d2041442052455454454c204553454e494c41423b46314231,
0x3b3b3b3b3b4e3b3b3b3b3b4c3b303b6f4c3b414e4152504148414d20414452554d2041442052455454454c204553454e494c41423b30324231,
0x3b3b3b3b3b4e3b3b3b3b3b4c3b303b6f4c3b5441424d415220414e2052455454454c204553454e494c41423b31324231,
0x3b3b3b3b3b4e3b3b3b3b3b4c3b303b6f4c3b41542052455454454c204553454e494c41423b32324231,
0x3b3b3b3b3b4e3b3b3b3b3b4c3b303b6f4c3b415741542041542052455454454c204553454e494c41423b33324231,
0x3b3b3b3b3b4e3b3b3b3b3b4c3b303b6f4c3b41442052455454454c204553454e494c41423b34324231,
0x3b3b3b3b3b4e3b3b3b3b3b4c3b303b6f4c3b5544414d2041442052455454454c204553454e494c41423b35324231,
0x3b3b3b3b3b4e3b3b3b3b3b4c3b303b6f4c3b414e2052455454454c204553454e494c41423b36324231,
0x3b3b3b3b3b4e3b3b3b3b3b4c3b303b6f4c3b41502052455454454c204553454e494c41423b37324231,
0x3b3b3b3b3b4e3b3b3b3b3b4c3b303b6f4c3b4c4150414b2041502052455454454c204553454e494c41423b38324231,
0x3b3b3b3b3b4e3b3b3b3b3b4c3b303b6f4c3b41422052455454454c204553454e494c41423b39324231,
0x3b3b3b3b3b4e3b3b3b3b3b4c3b303b6f4c3b474e41424d454b2041422052455454454c204553454e494c41423b41324231,
0x3b3b3b3b3b4e3b3b3b3b3b4c3b303b6f4c3b414d2052455454454c204553454e494c41423b42324231,
0x3b3b3b3b3b4e3b3b3b3b3b4c3b303b6f4c3b41592052455454454c204553454e494c41423b43324231,
0x3b3b3b3b3b4e3b3b3b3b3b4c3b303b6f4c3b41522052455454454c204553454e494c41423b44324231,
0x3b3b3b3b3b4e3b3b3b3b3b4c3b303b6f4c3b414c2052455454454c204553454e494c41423b45324231,
0x3b3b3b3b3b4e3b3b3b3b3b4c3b303b6f4c3b41572052455454454c204553454e494c41423b46324231,
0x3b3b3b3b3b4e3b3b3b3b3b4c3b303b6f4c3b414741532041532052455454454c204553454e494c41423b30334231,
0x3b3b3b3b3b4e3b3b3b3b3b4c3b303b6f4c3b415041532041532052455454454c204553454e494c41423b31334231,
0x3b3b3b3b3b4e3b3b3b3b3b4c3b303b6f4c3b41532052455454454c204553454e494c41423b32334231,
0x3b3b3b3b3b4e3b3b3b3b3b4c3b303b6f4c3b41482052455454454c204553454e494c41423b33334231,
0x3b3b3b3b3b4e3b3b3b3b3b4d534e3b373b6e4d3b4e414b45524552204e474953204553454e494c41423b34334231,
0x3b3b3b3b3b4e3b3b3b3b3b4c3b303b634d3b474e55444554204e474953204c45574f56204553454e494c41423b35334231,
0x3b3b3b3b3b4e3b3b3b3b3b4d534e3b303b6e4d3b554c55204e474953204c45574f56204553454e494c41423b36334231,
0x3b3b3b3b3b4e3b3b3b3b3b4d534e3b303b6e4d3b4952415320554c55204e474953204c45574f56204553454e494c41423b37334231,
0x3b3b3b3b3b4e3b3b3b3b3b4d534e3b303b6e4d3b554b5553204e474953204c45574f56204553454e494c41423b38334231,
0x3b3b3b3b3b4e3b3b3b3b3b4d534e3b303b6e4d3b54554c4920554b5553204e474953204c45574f56204553454e494c41423b39334231,
0x3b3b3b3b3b4e3b3b3b3b3b4d534e3b303b6e4d3b41504552204152204e474953204c45574f56204553454e494c41423b41334231,
0x3b3b3b3b3b4e3b3b3b3b3533423120413342313b4c3b303b634d3b474e554445542041504552204152204e474953204c45574f56204553454e494c41423b42334231,
0x3b3b3b3b3b4e3b3b3b3b3b4d534e3b303b6e4d3b41474e454c20414c204e474953204c45574f56204553454e494c41423b43334231,
0x3b3b3b3b3b4e3b3b3b3b3533423120433342313b4c3b303b634d3b474e554445542041474e454c20414c204e474953204c45574f56204553454e494c41423b44334231,
0x3b3b3b3b3b4e3b3b3b3b3b4c3b303b634d3b474e494c4154204e474953204c45574f56204553454e494c41423b45334231,
0x3b3b3b3b3b4e3b3b3b3b3b4c3b303b634d3b4150455220474e494c4154204e474953204c45574f56204553454e494c41423b46334231,
0x3b3b3b3b3b4e3b3b3b3b3533423120453342313b4c3b303b634d3b474e5544455420474e494c4154204e474953204c45574f56204553454e494c41423b30344231,
0x3b3b3b3b3b4e3b3b3b3b3533423120463342313b4c3b303b634d3b474e55444554204150455220474e494c4154204e474953204c45574f56204553454e494c41423b31344231,
0x3b3b3b3b3b4e3b3b3b3b3b4d534e3b303b6e4d3b5445504550204e474953204c45574f56204553454e494c41423b32344231,
0x3b3b3b3b3b4e3b3b3b3b3533423120323442313b4c3b303b634d3b474e55444554205445504550204e474953204c45574f56204553454e494c41423b33344231,
0x3b3b3b3b3b4e3b3b3b3b3b4c3b393b634d3b474544412047454441204553454e494c41423b34344231,
0x3b3b3b3b3b4e3b3b3b3b3b4c3b303b6f4c3b4b415341532046414b2052455454454c204553454e494c41423b35344231,
0x3b3b3b3b3b4e3b3b3b3b3b4c3b303b6f4c3b4b4153415320544f484b2052455454454c204553454e494c41423b36344231,
0x3b3b3b3b3b4e3b3b3b3b3b4c3b303b6f4c3b4b415341532052495a542052455454454c204553454e494c41423b37344231,
0x3b3b3b3b3b4e3b3b3b3b3b4c3b303b6f4c3b4b415341532046452052455454454c204553454e494c41423b38344231,
0x3b3b3b3b3b4e3b3b3b3b3b4c3b303b6f4c3b4b415341532045562052455454454c204553454e494c41423b39344231,
0x3b3b3b3b3b4e3b3b3b3b3b4c3b303b6f4c3b4b41534153204c415a2052455454454c204553454e494c41423b41344231,
0x3b3b3b3b3b4e3b3b3b3b3b4c3b303b6f4c3b4b41534153204152555953412052455454454c204553454e494c41423b42344231,
0x3b3b3b3b3b4e3b303b303b303b3b4c3b303b644e3b4f52455a205449474944204553454e494c41423b30354231,
0x3b3b3b3b3b4e3b313b313b313b3b4c3b303b644e3b454e4f205449474944204553454e494c41423b31354231,
0x3b3b3b3b3b4e3b323b323b323b3b4c3b303b644e3b4f5754205449474944204553454e494c41423b32354231,
0x3b3b3b3b3b4e3b333b333b333b3b4c3b303b644e3b4545524854205449474944204553454e494c41423b33354231,
0x3b3b3b3b3b4e3b343b343b343b3b4c3b303b644e3b52554f46205449474944204553454e494c41423b34354231,
0x3b3b3b3b3b4e3b353b353b353b3b4c3b303b644e3b45564946205449474944204553454e494c41423b35354231,
0x3b3b3b3b3b4e3b363b363b363b3b4c3b303b644e3b584953205449474944204553454e494c41423b36354231,
0x3b3b3b3b3b4e3b373b373b373b3b4c3b303b644e3b4e45564553205449474944204553454e494c41423b37354231,
0x3b3b3b3b3b4e3b383b383b383b3b4c3b303b644e3b5448474945205449474944204553454e494c41423b38354231,
0x3b3b3b3b3b4e3b393b393b393b3b4c3b303b644e3b454e494e205449474944204553454e494c41423b39354231,
0x3b3b3b3b3b4e3b3b3b3b3b4c3b303b6f503b49544e4150204553454e494c41423b41354231,
0x3b3b3b3b3b4e3b3b3b3b3b4c3b303b6f503b4144414d4150204553454e494c41423b42354231,
0x3b3b3b3b3b4e3b3b3b3b3b4c3b303b6f503b55444e4957204553454e494c41423b43354231,
0x3b3b3b3b3b4e3b3b3b3b3b4c3b303b6f503b48414b474e554d4150204b49524143204553454e494c41423b44354231,
0x3b3b3b3b3b4e3b3b3b3b3b4c3b303b6f503b494b4953204b49524143204553454e494c41423b45354231,
0x3b3b3b3b3b4e3b3b3b3b3b4c3b303b6f503b4e455245524150204b49524143204553454e494c41423b46354231,
0x3b3b3b3b3b4e3b3b3b3b3b4c3b303b6f503b474e454e454d4150204553454e494c41423b30364231,
0x3b3b3b3b3b4e3b3b3b3b3b4c3b303b6f533b474e4f44204c4f424d5953204c41434953554d204553454e494c41423b31364231,
0x3b3b3b3b3b4e3b3b3b3b3b4c3b303b6f533b474e4544204c4f424d5953204c41434953554d204553454e494c41423b32364231,
0x3b3b3b3b3b4e3b3b3b3b3b4c3b303b6f533b474e5544204c4f424d5953204c41434953554d204553454e494c41423b33364231,
0x3b3b3b3b3b4e3b3b3b3b3b4c3b303b6f533b474e4144204c4f424d5953204c41434953554d204553454e494c41423b34364231,
0x3b3b3b3b3b4e3b3b3b3b3b4c3b303b6f533b474e4152555320474e4144204c4f424d5953204c41434953554d204553454e494c41423b35364231,
0x3b3b3b3b3b4e3b3b3b3b3b4c3b303b6f533b474e4944204c4f424d5953204c41434953554d204553454e494c41423b36364231,
0x3b3b3b3b3b4e3b3b3b3b3b4c3b303b6f533b474e454144204c4f424d5953204c41434953554d204553454e494c41423b37364231,
0x3b3b3b3b3b4e3b3b3b3b3b4c3b303b6f533b474e554544204c4f424d5953204c41434953554d204553454e494c41423b38364231,
0x3b3b3b3b3b4e3b3b3b3b3b4c3b303b6f533b474e494144204c4f424d5953204c41434953554d204553454e494c41423b39364231,
0x3b3b3b3b3b4e3b3b3b3b3b4c3b303b6f533b4544454720474e4144204c4f424d5953204c41434953554d204553454e494c41423b41364231,
0x3b3b3b3b3b4e3b3b3b3b3b4d534e3b3033323b6e4d3b484547455420474e494e49424d4f43204c4f424d5953204c41434953554d204553454e494c41423b42364231,
0x3b3b3b3b3b4e3b3b3b3b3b4d534e3b3032323b6e4d3b5045444e4520474e494e49424d4f43204c4f424d5953204c41434953554d204553454e494c41423b43364231,
0x3b3b3b3b3b4e3b3b3b3b3b4d534e3b3033323b6e4d3b4c55504d454b20474e494e49424d4f43204c4f424d5953204c41434953554d204553454e494c41423b44364231,
0x3b3b3b3b3b4e3b3b3b3b3b4d534e3b3033323b6e4d3b494c504d454b20474e494e49424d4f43204c4f424d5953204c41434953554d204553454e494c41423b45364231,
0x3b3b3b3b3b4e3b3b3b3b3b4d534e3b3033323b6e4d3b4e41474f47454a20474e494e49424d4f43204c4f424d5953204c41434953554d204553454e494c41423b46364231,
0x3b3b3b3b3b4e3b3b3b3b3b4d534e3b3033323b6e4d3b4e41474f47454a2048544957204c55504d454b20474e494e49424d4f43204c4f424d5953204c41434953554d204553454e494c41423b30374231,
0x3b3b3b3b3b4e3b3b3b3b3b4d534e3b3033323b6e4d3b4e41474f47454a204854495720494c504d454b20474e494e49424d4f43204c4f424d5953204c41434953554d204553454e494c41423b31374231,
0x3b3b3b3b3b4e3b3b3b3b3b4d534e3b3033323b6e4d3b45444e454220474e494e49424d4f43204c4f424d5953204c41434953554d204553454e494c41423b32374231,
0x3b3b3b3b3b4e3b3b3b3b3b4d534e3b3033323b6e4d3b474e4f4720474e494e49424d4f43204c4f424d5953204c41434953554d204553454e494c41423b33374231,
0x3b3b3b3b3b4e3b3b3b3b3b4c3b303b6f533b475544204e45504f20444e41482d5448474952204c4f424d5953204c41434953554d204553454e494c41423b34374231,
0x3b3b3b3b3b4e3b3b3b3b3b4c3b303b6f533b474144204e45504f20444e41482d5448474952204c4f424d5953204c41434953554d204553454e494c41423b35374231,
0x3b3b3b3b3b4e3b3b3b3b3b4c3b303b6f533b4b5554204445534f4c4320444e41482d5448474952204c4f424d5953204c41434953554d204553454e494c41423b36374231,
0x3b3b3b3b3b4e3b3b3b3b3b4c3b303b6f533b4b4154204445534f4c4320444e41482d5448474952204c4f424d5953204c41434953554d204553454e494c41423b37374231,
0x3b3b3b3b3b4e3b3b3b3b3b4c3b303b6f533b474e4150204e45504f20444e41482d5446454c204c4f424d5953204c41434953554d204553454e494c41423b38374231,
0x3b3b3b3b3b4e3b3b3b3b3b4c3b303b6f533b474e5550204e45504f20444e41482d5446454c204c4f424d5953204c41434953554d204553454e494c41423b39374231,
0x3b3b3b3b3b4e3b3b3b3b3b4c3b303b6f533b4b414c50204445534f4c4320444e41482d5446454c204c4f424d5953204c41434953554d204553454e494c41423b41374231,
0x3b3b3b3b3b4e3b3b3b3b3b4c3b303b6f533b4b554c50204445534f4c4320444e41482d5446454c204c4f424d5953204c41434953554d204553454e494c41423b42374231,
0x3b3b3b3b3b4e3b3b3b3b3b4c3b303b6f533b474e4950204e45504f20444e41482d5446454c204c4f424d5953204c41434953554d204553454e494c41423b43374231,
0x3b3b3b3b3b4e3b3b3b3b3b4d534e3b303b6e4d3b4b454345594e4150204e474953204553454e41444e55533b30384231,
0x3b3b3b3b3b4e3b3b3b3b3b4d534e3b303b6e4d3b524159414c474e4150204e474953204553454e41444e55533b31384231,
0x3b3b3b3b3b4e3b3b3b3b3b4c3b303b634d3b4441534957474e4150204e474953204553454e41444e55533b32384231,
0x3b3b3b3b3b4e3b3b3b3b3b4c3b303b6f4c3b412052455454454c204553454e41444e55533b33384231,
0x3b3b3b3b3b4e3b3b3b3b3b4c3b303b6f4c3b492052455454454c204553454e41444e55533b34384231,
0x3b3b3b3b3b4e3b3b3b3b3b4c3b303b6f4c3b552052455454454c204553454e41444e55533b35384231,
0x3b3b3b3b3b4e3b3b3b3b3b4c3b303b6f4c3b45412052455454454c204553454e41444e55533b36384231,
0x3b3b3b3b3b4e3b3b3b3b3b4c3b303b6f4c3b4f2052455454454c204553454e41444e55533b37384231,
0x3b3b3b3b3b4e3b3b3b3b3b4c3b303b6f4c3b452052455454454c204553454e41444e55533b38384231,
0x3b3b3b3b3b4e3b3b3b3b3b4c3b303b6f4c3b55452052455454454c204553454e41444e55533b39384231,
0x3b3b3b3b3b4e3b3b3b3b3b4c3b303b6f4c3b414b2052455454454c204553454e41444e55533b41384231,
0x3b3b3b3b3b4e3b3b3b3b3b4c3b303b6f4c3b41512052455454454c204553454e41444e55533b42384231,
0x3b3b3b3b3b4e3b3b3b3b3b4c3b303b6f4c3b41472052455454454c204553454e41444e55533b43384231,
0x3b3b3b3b3b4e3b3b3b3b3b4c3b303b6f4c3b41474e2052455454454c204553454e41444e55533b44384231,
0x3b3b3b3b3b4e3b3b3b3b3b4c3b303b6f4c3b41432052455454454c204553454e41444e55533b45384231,
0x3b3b3b3b3b4e3b3b3b3b3b4c3b303b6f4c3b414a2052455454454c204553454e41444e55533b46384231,
0x3b3b3b3b3b4e3b3b3b3b3b4c3b303b6f4c3b415a2052455454454c204553454e41444e55533b30394231,
0x3b3b3b3b3b4e3b3b3b3b3b4c3b303b6f4c3b41594e2052455454454c204553454e41444e55533b31394231,
0x3b3b3b3b3b4e3b3b3b3b3b4c3b303b6f4c3b41542052455454454c204553454e41444e55533b32394231,
0x3b3b3b3b3b4e3b3b3b3b3b4c3b303b6f4c3b41442052455454454c204553454e41444e55533b33394231,
0x3b3b3b3b3b4e3b3b3b3b3b4c3b303b6f4c3b414e2052455454454c204553454e41444e55533b34394231,
0x3b3b3b3b3b4e3b3b3b3b3b4c3b303b6f4c3b41502052455454454c204553454e41444e55533b35394231,
0x3b3b3b3b3b4e3b3b3b3b3b4c3b303b6f4c3b41462052455454454c204553454e41444e55533b36394231,
0x3b3b3b3b3b4e3b3b3b3b3b4c3b303b6f4c3b41562052455454454c204553454e41444e55533b37394231,
0x3b3b3b3b3b4e3b3b3b3b3b4c3b303b6f4c3b41422052455454454c204553454e41444e55533b38394231,
0x3b3b3b3b3b4e3b3b3b3b3b4c3b303b6f4c3b414d2052455454454c204553454e41444e55533b39394231,
0x3b3b3b3b3b4e3b3b3b3b3b4c3b303b6f4c3b41592052455454454c204553454e41444e55533b41394231]

/-- src/u5e/props/UnicodeData.txt lines 6145-6400. -/
def rawUcd24 : List Nat := [
0x3b3b3b3b3b4e3b3b3b3b3b4c3b303b6f4c3b41522052455454454c204553454e41444e55533b42394231,
0x3b3b3b3b3b4e3b3b3b3b3b4c3b303b6f4c3b414c2052455454454c204553454e41444e55533b43394231,
0x3b3b3b3b3b4e3b3b3b3b3b4c3b303b6f4c3b41572052455454454c204553454e41444e55533b44394231,
0x3b3b3b3b3b4e3b3b3b3b3b4c3b303b6f4c3b41532052455454454c204553454e41444e55533b45394231,
0x3b3b3b3b3b4e3b3b3b3b3b4c3b303b6f4c3b41582052455454454c204553454e41444e55533b46394231,
0x3b3b3b3b3b4e3b3b3b3b3b4c3b303b6f4c3b41482052455454454c204553454e41444e55533b30414231,
0x3b3b3b3b3b4e3b3b3b3b3b4c3b303b634d3b4c414b474e494d4150204e47495320544e414e4f534e4f43204553454e41444e55533b31414231,
0x3b3b3b3b3b4e3b3b3b3b3b4d534e3b303b6e4d3b41524b41594e4150204e47495320544e414e4f534e4f43204553454e41444e55533b32414231,
0x3b3b3b3b3b4e3b3b3b3b3b4d534e3b303b6e4d3b554b49594e4150204e47495320544e414e4f534e4f43204553454e41444e55533b33414231,
0x3b3b3b3b3b4e3b3b3b3b3b4d534e3b303b6e4d3b554c5548474e4150204e474953204c45574f56204553454e41444e55533b34414231,
0x3b3b3b3b3b4e3b3b3b3b3b4d534e3b303b6e4d3b554b55594e4150204e474953204c45574f56204553454e41444e55533b35414231,
0x3b3b3b3b3b4e3b3b3b3b3b4c3b303b634d3b474e45414c45414e4150204e474953204c45574f56204553454e41444e55533b36414231,
0x3b3b3b3b3b4e3b3b3b3b3b4c3b303b634d3b474e4f4c4f4e4150204e474953204c45574f56204553454e41444e55533b37414231,
0x3b3b3b3b3b4e3b3b3b3b3b4d534e3b303b6e4d3b544550454d4150204e474953204c45574f56204553454e41444e55533b38414231,
0x3b3b3b3b3b4e3b3b3b3b3b4d534e3b303b6e4d3b474e55454c55454e4150204e474953204c45574f56204553454e41444e55533b39414231,
0x3b3b3b3b3b4e3b3b3b3b3b4c3b393b634d3b484541414d4150204e474953204553454e41444e55533b41414231,
0x3b3b3b3b3b4e3b3b3b3b3b4d534e3b393b6e4d3b414d41524956204e474953204553454e41444e55533b42414231,
0x3b3b3b3b3b4e3b3b3b3b3b4d534e3b303b6e4d3b414d204e41474e41534150204e47495320544e414e4f534e4f43204553454e41444e55533b43414231,
0x3b3b3b3b3b4e3b3b3b3b3b4d534e3b303b6e4d3b4157204e41474e41534150204e47495320544e414e4f534e4f43204553454e41444e55533b44414231,
0x3b3b3b3b3b4e3b3b3b3b3b4c3b303b6f4c3b41484b2052455454454c204553454e41444e55533b45414231,
0x3b3b3b3b3b4e3b3b3b3b3b4c3b303b6f4c3b4159532052455454454c204553454e41444e55533b46414231,
0x3b3b3b3b3b4e3b303b303b303b3b4c3b303b644e3b4f52455a205449474944204553454e41444e55533b30424231,
0x3b3b3b3b3b4e3b313b313b313b3b4c3b303b644e3b454e4f205449474944204553454e41444e55533b31424231,
0x3b3b3b3b3b4e3b323b323b323b3b4c3b303b644e3b4f5754205449474944204553454e41444e55533b32424231,
0x3b3b3b3b3b4e3b333b333b333b3b4c3b303b644e3b4545524854205449474944204553454e41444e55533b33424231,
0x3b3b3b3b3b4e3b343b343b343b3b4c3b303b644e3b52554f46205449474944204553454e41444e55533b34424231,
0x3b3b3b3b3b4e3b353b353b353b3b4c3b303b644e3b45564946205449474944204553454e41444e55533b35424231,
0x3b3b3b3b3b4e3b363b363b363b3b4c3b303b644e3b584953205449474944204553454e41444e55533b36424231,
0x3b3b3b3b3b4e3b373b373b373b3b4c3b303b644e3b4e45564553205449474944204553454e41444e55533b37424231,
0x3b3b3b3b3b4e3b383b383b383b3b4c3b303b644e3b5448474945205449474944204553454e41444e55533b38424231,
0x3b3b3b3b3b4e3b393b393b393b3b4c3b303b644e3b454e494e205449474944204553454e41444e55533b39424231,
0x3b3b3b3b3b4e3b3b3b3b3b4c3b303b6f4c3b4148415247415641204553454e41444e55533b41424231,
0x3b3b3b3b3b4e3b3b3b3b3b4c3b303b6f4c3b5545522052455454454c204553454e41444e55533b42424231,
0x3b3b3b3b3b4e3b3b3b3b3b4c3b303b6f4c3b55454c2052455454454c204553454e41444e55533b43424231,
0x3b3b3b3b3b4e3b3b3b3b3b4c3b303b6f4c3b4148422052455454454c204553454e41444e55533b44424231,
0x3b3b3b3b3b4e3b3b3b3b3b4c3b303b6f4c3b4b204c414e49462052455454454c204553454e41444e55533b45424231,
0x3b3b3b3b3b4e3b3b3b3b3b4c3b303b6f4c3b4d204c414e49462052455454454c204553454e41444e55533b46424231,
0x3b3b3b3b3b4e3b3b3b3b3b4c3b303b6f4c3b412052455454454c204b415441423b30434231,
0x3b3b3b3b3b4e3b3b3b3b3b4c3b303b6f4c3b41204e55474e554c414d49532052455454454c204b415441423b31434231,
0x3b3b3b3b3b4e3b3b3b3b3b4c3b303b6f4c3b41482052455454454c204b415441423b32434231,
0x3b3b3b3b3b4e3b3b3b3b3b4c3b303b6f4c3b4148204e55474e554c414d49532052455454454c204b415441423b33434231,
0x3b3b3b3b3b4e3b3b3b3b3b4c3b303b6f4c3b414820474e494c4941444e414d2052455454454c204b415441423b34434231,
0x3b3b3b3b3b4e3b3b3b3b3b4c3b303b6f4c3b41422052455454454c204b415441423b35434231,
0x3b3b3b3b3b4e3b3b3b3b3b4c3b303b6f4c3b4142204f52414b2052455454454c204b415441423b36434231,
0x3b3b3b3b3b4e3b3b3b3b3b4c3b303b6f4c3b41502052455454454c204b415441423b37434231,
0x3b3b3b3b3b4e3b3b3b3b3b4c3b303b6f4c3b4150204e55474e554c414d49532052455454454c204b415441423b38434231,
0x3b3b3b3b3b4e3b3b3b3b3b4c3b303b6f4c3b414e2052455454454c204b415441423b39434231,
0x3b3b3b3b3b4e3b3b3b3b3b4c3b303b6f4c3b414e20474e494c4941444e414d2052455454454c204b415441423b41434231,
0x3b3b3b3b3b4e3b3b3b3b3b4c3b303b6f4c3b41572052455454454c204b415441423b42434231,
0x3b3b3b3b3b4e3b3b3b3b3b4c3b303b6f4c3b4157204e55474e554c414d49532052455454454c204b415441423b43434231,
0x3b3b3b3b3b4e3b3b3b3b3b4c3b303b6f4c3b4157204b41504b41502052455454454c204b415441423b44434231,
0x3b3b3b3b3b4e3b3b3b3b3b4c3b303b6f4c3b41472052455454454c204b415441423b45434231,
0x3b3b3b3b3b4e3b3b3b3b3b4c3b303b6f4c3b4147204e55474e554c414d49532052455454454c204b415441423b46434231,
0x3b3b3b3b3b4e3b3b3b3b3b4c3b303b6f4c3b414a2052455454454c204b415441423b30444231,
0x3b3b3b3b3b4e3b3b3b3b3b4c3b303b6f4c3b41442052455454454c204b415441423b31444231,
0x3b3b3b3b3b4e3b3b3b3b3b4c3b303b6f4c3b41522052455454454c204b415441423b32444231,
0x3b3b3b3b3b4e3b3b3b3b3b4c3b303b6f4c3b4152204e55474e554c414d49532052455454454c204b415441423b33444231,
0x3b3b3b3b3b4e3b3b3b3b3b4c3b303b6f4c3b414d2052455454454c204b415441423b34444231,
0x3b3b3b3b3b4e3b3b3b3b3b4c3b303b6f4c3b414d204e55474e554c414d49532052455454454c204b415441423b35444231,
0x3b3b3b3b3b4e3b3b3b3b3b4c3b303b6f4c3b4154204e52454854554f532052455454454c204b415441423b36444231,
0x3b3b3b3b3b4e3b3b3b3b3b4c3b303b6f4c3b4154204e52454854524f4e2052455454454c204b415441423b37444231,
0x3b3b3b3b3b4e3b3b3b3b3b4c3b303b6f4c3b41532052455454454c204b415441423b38444231,
0x3b3b3b3b3b4e3b3b3b3b3b4c3b303b6f4c3b4153204e55474e554c414d49532052455454454c204b415441423b39444231,
0x3b3b3b3b3b4e3b3b3b3b3b4c3b303b6f4c3b415320474e494c4941444e414d2052455454454c204b415441423b41444231,
0x3b3b3b3b3b4e3b3b3b3b3b4c3b303b6f4c3b41592052455454454c204b415441423b42444231,
0x3b3b3b3b3b4e3b3b3b3b3b4c3b303b6f4c3b4159204e55474e554c414d49532052455454454c204b415441423b43444231,
0x3b3b3b3b3b4e3b3b3b3b3b4c3b303b6f4c3b41474e2052455454454c204b415441423b44444231,
0x3b3b3b3b3b4e3b3b3b3b3b4c3b303b6f4c3b414c2052455454454c204b415441423b45444231,
0x3b3b3b3b3b4e3b3b3b3b3b4c3b303b6f4c3b414c204e55474e554c414d49532052455454454c204b415441423b46444231,
0x3b3b3b3b3b4e3b3b3b3b3b4c3b303b6f4c3b41594e2052455454454c204b415441423b30454231,
0x3b3b3b3b3b4e3b3b3b3b3b4c3b303b6f4c3b41432052455454454c204b415441423b31454231,
0x3b3b3b3b3b4e3b3b3b3b3b4c3b303b6f4c3b41444e2052455454454c204b415441423b32454231,
0x3b3b3b3b3b4e3b3b3b3b3b4c3b303b6f4c3b41424d2052455454454c204b415441423b33454231,
0x3b3b3b3b3b4e3b3b3b3b3b4c3b303b6f4c3b492052455454454c204b415441423b34454231,
0x3b3b3b3b3b4e3b3b3b3b3b4c3b303b6f4c3b552052455454454c204b415441423b35454231,
0x3b3b3b3b3b4e3b3b3b3b3b4d534e3b373b6e4d3b49504d4f54204e474953204b415441423b36454231,
0x3b3b3b3b3b4e3b3b3b3b3b4c3b303b634d3b45204e474953204c45574f56204b415441423b37454231,
0x3b3b3b3b3b4e3b3b3b3b3b4d534e3b303b6e4d3b45204b41504b4150204e474953204c45574f56204b415441423b38454231,
0x3b3b3b3b3b4e3b3b3b3b3b4d534e3b303b6e4d3b4545204e474953204c45574f56204b415441423b39454231,
0x3b3b3b3b3b4e3b3b3b3b3b4c3b303b634d3b49204e474953204c45574f56204b415441423b41454231,
0x3b3b3b3b3b4e3b3b3b3b3b4c3b303b634d3b49204f52414b204e474953204c45574f56204b415441423b42454231,
0x3b3b3b3b3b4e3b3b3b3b3b4c3b303b634d3b4f204e474953204c45574f56204b415441423b43454231,
0x3b3b3b3b3b4e3b3b3b3b3b4d534e3b303b6e4d3b4f204f52414b204e474953204c45574f56204b415441423b44454231,
0x3b3b3b3b3b4e3b3b3b3b3b4c3b303b634d3b55204e474953204c45574f56204b415441423b45454231,
0x3b3b3b3b3b4e3b3b3b3b3b4d534e3b303b6e4d3b4153204e55474e554c414d495320524f462055204e474953204c45574f56204b415441423b46454231,
0x3b3b3b3b3b4e3b3b3b3b3b4d534e3b303b6e4d3b474e204e47495320544e414e4f534e4f43204b415441423b30464231,
0x3b3b3b3b3b4e3b3b3b3b3b4d534e3b303b6e4d3b48204e47495320544e414e4f534e4f43204b415441423b31464231,
0x3b3b3b3b3b4e3b3b3b3b3b4c3b393b634d3b54414c4f474e4150204b415441423b32464231,
0x3b3b3b3b3b4e3b3b3b3b3b4c3b393b634d3b4e414e4f474e4f4e4150204b415441423b33464231,
0x3b3b3b3b3b4e3b3b3b3b3b4c3b303b6f503b4b4554454d20414e2055444e4942204c4f424d5953204b415441423b43464231,
0x3b3b3b3b3b4e3b3b3b3b3b4c3b303b6f503b5341524f4252414e49502055444e4942204c4f424d5953204b415441423b44464231,
0x3b3b3b3b3b4e3b3b3b3b3b4c3b303b6f503b4c5544554a2055444e4942204c4f424d5953204b415441423b45464231,
0x3b3b3b3b3b4e3b3b3b3b3b4c3b303b6f503b54414c4f474e41502055444e4942204c4f424d5953204b415441423b46464231,
0x3b3b3b3b3b4e3b3b3b3b3b4c3b303b6f4c3b414b2052455454454c2041484350454c3b30304331,
0x3b3b3b3b3b4e3b3b3b3b3b4c3b303b6f4c3b414c4b2052455454454c2041484350454c3b31304331,
0x3b3b3b3b3b4e3b3b3b3b3b4c3b303b6f4c3b41484b2052455454454c2041484350454c3b32304331,
0x3b3b3b3b3b4e3b3b3b3b3b4c3b303b6f4c3b41472052455454454c2041484350454c3b33304331,
0x3b3b3b3b3b4e3b3b3b3b3b4c3b303b6f4c3b414c472052455454454c2041484350454c3b34304331,
0x3b3b3b3b3b4e3b3b3b3b3b4c3b303b6f4c3b41474e2052455454454c2041484350454c3b35304331,
0x3b3b3b3b3b4e3b3b3b3b3b4c3b303b6f4c3b41432052455454454c2041484350454c3b36304331,
0x3b3b3b3b3b4e3b3b3b3b3b4c3b303b6f4c3b4148432052455454454c2041484350454c3b37304331,
0x3b3b3b3b3b4e3b3b3b3b3b4c3b303b6f4c3b414a2052455454454c2041484350454c3b38304331,
0x3b3b3b3b3b4e3b3b3b3b3b4c3b303b6f4c3b41594e2052455454454c2041484350454c3b39304331,
0x3b3b3b3b3b4e3b3b3b3b3b4c3b303b6f4c3b41542052455454454c2041484350454c3b41304331,
0x3b3b3b3b3b4e3b3b3b3b3b4c3b303b6f4c3b4148542052455454454c2041484350454c3b42304331,
0x3b3b3b3b3b4e3b3b3b3b3b4c3b303b6f4c3b41442052455454454c2041484350454c3b43304331,
0x3b3b3b3b3b4e3b3b3b3b3b4c3b303b6f4c3b414e2052455454454c2041484350454c3b44304331,
0x3b3b3b3b3b4e3b3b3b3b3b4c3b303b6f4c3b41502052455454454c2041484350454c3b45304331,
0x3b3b3b3b3b4e3b3b3b3b3b4c3b303b6f4c3b414c502052455454454c2041484350454c3b46304331,
0x3b3b3b3b3b4e3b3b3b3b3b4c3b303b6f4c3b4148502052455454454c2041484350454c3b30314331,
0x3b3b3b3b3b4e3b3b3b3b3b4c3b303b6f4c3b41462052455454454c2041484350454c3b31314331,
0x3b3b3b3b3b4e3b3b3b3b3b4c3b303b6f4c3b414c462052455454454c2041484350454c3b32314331,
0x3b3b3b3b3b4e3b3b3b3b3b4c3b303b6f4c3b41422052455454454c2041484350454c3b33314331,
0x3b3b3b3b3b4e3b3b3b3b3b4c3b303b6f4c3b414c422052455454454c2041484350454c3b34314331,
0x3b3b3b3b3b4e3b3b3b3b3b4c3b303b6f4c3b414d2052455454454c2041484350454c3b35314331,
0x3b3b3b3b3b4e3b3b3b3b3b4c3b303b6f4c3b414c4d2052455454454c2041484350454c3b36314331,
0x3b3b3b3b3b4e3b3b3b3b3b4c3b303b6f4c3b4153542052455454454c2041484350454c3b37314331,
0x3b3b3b3b3b4e3b3b3b3b3b4c3b303b6f4c3b414853542052455454454c2041484350454c3b38314331,
0x3b3b3b3b3b4e3b3b3b3b3b4c3b303b6f4c3b415a442052455454454c2041484350454c3b39314331,
0x3b3b3b3b3b4e3b3b3b3b3b4c3b303b6f4c3b41592052455454454c2041484350454c3b41314331,
0x3b3b3b3b3b4e3b3b3b3b3b4c3b303b6f4c3b41522052455454454c2041484350454c3b42314331,
0x3b3b3b3b3b4e3b3b3b3b3b4c3b303b6f4c3b414c2052455454454c2041484350454c3b43314331,
0x3b3b3b3b3b4e3b3b3b3b3b4c3b303b6f4c3b41482052455454454c2041484350454c3b44314331,
0x3b3b3b3b3b4e3b3b3b3b3b4c3b303b6f4c3b414c482052455454454c2041484350454c3b45314331,
0x3b3b3b3b3b4e3b3b3b3b3b4c3b303b6f4c3b41562052455454454c2041484350454c3b46314331,
0x3b3b3b3b3b4e3b3b3b3b3b4c3b303b6f4c3b41532052455454454c2041484350454c3b30324331,
0x3b3b3b3b3b4e3b3b3b3b3b4c3b303b6f4c3b4148532052455454454c2041484350454c3b31324331,
0x3b3b3b3b3b4e3b3b3b3b3b4c3b303b6f4c3b41572052455454454c2041484350454c3b32324331,
0x3b3b3b3b3b4e3b3b3b3b3b4c3b303b6f4c3b412052455454454c2041484350454c3b33324331,
0x3b3b3b3b3b4e3b3b3b3b3b4c3b303b634d3b41592052455454454c2044454e494f4a4255532041484350454c3b34324331,
0x3b3b3b3b3b4e3b3b3b3b3b4c3b303b634d3b41522052455454454c2044454e494f4a4255532041484350454c3b35324331,
0x3b3b3b3b3b4e3b3b3b3b3b4c3b303b634d3b4141204e474953204c45574f562041484350454c3b36324331,
0x3b3b3b3b3b4e3b3b3b3b3b4c3b303b634d3b49204e474953204c45574f562041484350454c3b37324331,
0x3b3b3b3b3b4e3b3b3b3b3b4c3b303b634d3b4f204e474953204c45574f562041484350454c3b38324331,
0x3b3b3b3b3b4e3b3b3b3b3b4c3b303b634d3b4f4f204e474953204c45574f562041484350454c3b39324331,
0x3b3b3b3b3b4e3b3b3b3b3b4c3b303b634d3b55204e474953204c45574f562041484350454c3b41324331,
0x3b3b3b3b3b4e3b3b3b3b3b4c3b303b634d3b5555204e474953204c45574f562041484350454c3b42324331,
0x3b3b3b3b3b4e3b3b3b3b3b4d534e3b303b6e4d3b45204e474953204c45574f562041484350454c3b43324331,
0x3b3b3b3b3b4e3b3b3b3b3b4d534e3b303b6e4d3b4b204e47495320544e414e4f534e4f432041484350454c3b44324331,
0x3b3b3b3b3b4e3b3b3b3b3b4d534e3b303b6e4d3b4d204e47495320544e414e4f534e4f432041484350454c3b45324331,
0x3b3b3b3b3b4e3b3b3b3b3b4d534e3b303b6e4d3b4c204e47495320544e414e4f534e4f432041484350454c3b46324331,
0x3b3b3b3b3b4e3b3b3b3b3b4d534e3b303b6e4d3b4e204e47495320544e414e4f534e4f432041484350454c3b30334331,
0x3b3b3b3b3b4e3b3b3b3b3b4d534e3b303b6e4d3b50204e47495320544e414e4f534e4f432041484350454c3b31334331,
0x3b3b3b3b3b4e3b3b3b3b3b4d534e3b303b6e4d3b52204e47495320544e414e4f534e4f432041484350454c3b32334331,
0x3b3b3b3b3b4e3b3b3b3b3b4d534e3b303b6e4d3b54204e47495320544e414e4f534e4f432041484350454c3b33334331,
0x3b3b3b3b3b4e3b3b3b3b3b4c3b303b634d3b4f442d4e49594e204e47495320544e414e4f534e4f432041484350454c3b34334331,
0x3b3b3b3b3b4e3b3b3b3b3b4c3b303b634d3b474e414b204e47495320544e414e4f534e4f432041484350454c3b35334331,
0x3b3b3b3b3b4e3b3b3b3b3b4d534e3b303b6e4d3b4e4152204e4749532041484350454c3b36334331,
0x3b3b3b3b3b4e3b3b3b3b3b4d534e3b373b6e4d3b41544b554e204e4749532041484350454c3b37334331,
0x3b3b3b3b3b4e3b3b3b3b3b4c3b303b6f503b4c4f522d4154204e4f4954415554434e55502041484350454c3b42334331,
0x3b3b3b3b3b4e3b3b3b3b3b4c3b303b6f503b4c4f522d4154204d4f4f594854205445594e204e4f4954415554434e55502041484350454c3b43334331,
0x3b3b3b3b3b4e3b3b3b3b3b4c3b303b6f503b41572d524543204e4f4954415554434e55502041484350454c3b44334331,
0x3b3b3b3b3b4e3b3b3b3b3b4c3b303b6f503b41572d524543204b4f4f485354204e4f4954415554434e55502041484350454c3b45334331,
0x3b3b3b3b3b4e3b3b3b3b3b4c3b303b6f503b4b4f4f485354204e4f4954415554434e55502041484350454c3b46334331,
0x3b3b3b3b3b4e3b303b303b303b3b4c3b303b644e3b4f52455a2054494749442041484350454c3b30344331,
0x3b3b3b3b3b4e3b313b313b313b3b4c3b303b644e3b454e4f2054494749442041484350454c3b31344331,
0x3b3b3b3b3b4e3b323b323b323b3b4c3b303b644e3b4f57542054494749442041484350454c3b32344331,
0x3b3b3b3b3b4e3b333b333b333b3b4c3b303b644e3b45455248542054494749442041484350454c3b33344331,
0x3b3b3b3b3b4e3b343b343b343b3b4c3b303b644e3b52554f462054494749442041484350454c3b34344331,
0x3b3b3b3b3b4e3b353b353b353b3b4c3b303b644e3b455649462054494749442041484350454c3b35344331,
0x3b3b3b3b3b4e3b363b363b363b3b4c3b303b644e3b5849532054494749442041484350454c3b36344331,
0x3b3b3b3b3b4e3b373b373b373b3b4c3b303b644e3b4e455645532054494749442041484350454c3b37344331,
0x3b3b3b3b3b4e3b383b383b383b3b4c3b303b644e3b54484749452054494749442041484350454c3b38344331,
0x3b3b3b3b3b4e3b393b393b393b3b4c3b303b644e3b454e494e2054494749442041484350454c3b39344331,
0x3b3b3b3b3b4e3b3b3b3b3b4c3b303b6f4c3b4154542052455454454c2041484350454c3b44344331,
0x3b3b3b3b3b4e3b3b3b3b3b4c3b303b6f4c3b414854542052455454454c2041484350454c3b45344331,
0x3b3b3b3b3b4e3b3b3b3b3b4c3b303b6f4c3b4144442052455454454c2041484350454c3b46344331,
0x3b3b3b3b3b4e3b303b303b303b3b4c3b303b644e3b4f52455a20544947494420494b494843204c4f3b30354331,
0x3b3b3b3b3b4e3b313b313b313b3b4c3b303b644e3b454e4f20544947494420494b494843204c4f3b31354331,
0x3b3b3b3b3b4e3b323b323b323b3b4c3b303b644e3b4f575420544947494420494b494843204c4f3b32354331,
0x3b3b3b3b3b4e3b333b333b333b3b4c3b303b644e3b454552485420544947494420494b494843204c4f3b33354331,
0x3b3b3b3b3b4e3b343b343b343b3b4c3b303b644e3b52554f4620544947494420494b494843204c4f3b34354331,
0x3b3b3b3b3b4e3b353b353b353b3b4c3b303b644e3b4556494620544947494420494b494843204c4f3b35354331,
0x3b3b3b3b3b4e3b363b363b363b3b4c3b303b644e3b58495320544947494420494b494843204c4f3b36354331,
0x3b3b3b3b3b4e3b373b373b373b3b4c3b303b644e3b4e4556455320544947494420494b494843204c4f3b37354331,
0x3b3b3b3b3b4e3b383b383b383b3b4c3b303b644e3b544847494520544947494420494b494843204c4f3b38354331,
0x3b3b3b3b3b4e3b393b393b393b3b4c3b303b644e3b454e494e20544947494420494b494843204c4f3b39354331,
0x3b3b3b3b3b4e3b3b3b3b3b4c3b303b6f4c3b414c2052455454454c20494b494843204c4f3b41354331,
0x3b3b3b3b3b4e3b3b3b3b3b4c3b303b6f4c3b54412052455454454c20494b494843204c4f3b42354331,
0x3b3b3b3b3b4e3b3b3b3b3b4c3b303b6f4c3b47412052455454454c20494b494843204c4f3b43354331,
0x3b3b3b3b3b4e3b3b3b3b3b4c3b303b6f4c3b474e412052455454454c20494b494843204c4f3b44354331,
0x3b3b3b3b3b4e3b3b3b3b3b4c3b303b6f4c3b4c412052455454454c20494b494843204c4f3b45354331,
0x3b3b3b3b3b4e3b3b3b3b3b4c3b303b6f4c3b41414c2052455454454c20494b494843204c4f3b46354331,
0x3b3b3b3b3b4e3b3b3b3b3b4c3b303b6f4c3b4b41412052455454454c20494b494843204c4f3b30364331,
0x3b3b3b3b3b4e3b3b3b3b3b4c3b303b6f4c3b4a41412052455454454c20494b494843204c4f3b31364331,
0x3b3b3b3b3b4e3b3b3b3b3b4c3b303b6f4c3b4d41412052455454454c20494b494843204c4f3b32364331,
0x3b3b3b3b3b4e3b3b3b3b3b4c3b303b6f4c3b5741412052455454454c20494b494843204c4f3b33364331,
0x3b3b3b3b3b4e3b3b3b3b3b4c3b303b6f4c3b494c2052455454454c20494b494843204c4f3b34364331,
0x3b3b3b3b3b4e3b3b3b3b3b4c3b303b6f4c3b53492052455454454c20494b494843204c4f3b35364331,
0x3b3b3b3b3b4e3b3b3b3b3b4c3b303b6f4c3b48492052455454454c20494b494843204c4f3b36364331,
0x3b3b3b3b3b4e3b3b3b3b3b4c3b303b6f4c3b594e492052455454454c20494b494843204c4f3b37364331,
0x3b3b3b3b3b4e3b3b3b3b3b4c3b303b6f4c3b52492052455454454c20494b494843204c4f3b38364331,
0x3b3b3b3b3b4e3b3b3b3b3b4c3b303b6f4c3b554c2052455454454c20494b494843204c4f3b39364331,
0x3b3b3b3b3b4e3b3b3b3b3b4c3b303b6f4c3b43552052455454454c20494b494843204c4f3b41364331,
0x3b3b3b3b3b4e3b3b3b3b3b4c3b303b6f4c3b44552052455454454c20494b494843204c4f3b42364331,
0x3b3b3b3b3b4e3b3b3b3b3b4c3b303b6f4c3b4e4e552052455454454c20494b494843204c4f3b43364331,
0x3b3b3b3b3b4e3b3b3b3b3b4c3b303b6f4c3b59552052455454454c20494b494843204c4f3b44364331,
0x3b3b3b3b3b4e3b3b3b3b3b4c3b303b6f4c3b454c2052455454454c20494b494843204c4f3b45364331,
0x3b3b3b3b3b4e3b3b3b3b3b4c3b303b6f4c3b50452052455454454c20494b494843204c4f3b46364331,
0x3b3b3b3b3b4e3b3b3b3b3b4c3b303b6f4c3b4444452052455454454c20494b494843204c4f3b30374331,
0x3b3b3b3b3b4e3b3b3b3b3b4c3b303b6f4c3b4e452052455454454c20494b494843204c4f3b31374331,
0x3b3b3b3b3b4e3b3b3b3b3b4c3b303b6f4c3b5252452052455454454c20494b494843204c4f3b32374331,
0x3b3b3b3b3b4e3b3b3b3b3b4c3b303b6f4c3b4f4c2052455454454c20494b494843204c4f3b33374331,
0x3b3b3b3b3b4e3b3b3b3b3b4c3b303b6f4c3b54544f2052455454454c20494b494843204c4f3b34374331,
0x3b3b3b3b3b4e3b3b3b3b3b4c3b303b6f4c3b424f2052455454454c20494b494843204c4f3b35374331,
0x3b3b3b3b3b4e3b3b3b3b3b4c3b303b6f4c3b564f2052455454454c20494b494843204c4f3b36374331,
0x3b3b3b3b3b4e3b3b3b3b3b4c3b303b6f4c3b484f2052455454454c20494b494843204c4f3b37374331,
0x3b3b3b3b3b4e3b3b3b3b3b4c3b303b6d4c3b4741444455545420554d20494b494843204c4f3b38374331,
0x3b3b3b3b3b4e3b3b3b3b3b4c3b303b6d4c3b47414144445554542041414c4841414720494b494843204c4f3b39374331,
0x3b3b3b3b3b4e3b3b3b3b3b4c3b303b6d4c3b47414144445554542041414c484141472d554d20494b494843204c4f3b41374331,
0x3b3b3b3b3b4e3b3b3b3b3b4c3b303b6d4c3b41414c455220494b494843204c4f3b42374331,
0x3b3b3b3b3b4e3b3b3b3b3b4c3b303b6d4c3b41414b524141485020494b494843204c4f3b43374331,
0x3b3b3b3b3b4e3b3b3b3b3b4c3b303b6d4c3b4441484120494b494843204c4f3b44374331,
0x3b3b3b3b3b4e3b3b3b3b3b4c3b303b6f503b44414143554d204e4f4954415554434e555020494b494843204c4f3b45374331,
0x3b3b3b3b3b4e3b3b3b3b3b4c3b303b6f503b44414143554d20454c42554f44204e4f4954415554434e555020494b494843204c4f3b46374331,
0x323134303b3b323134303b3b3b4e3b3b3b3b3b4c3b303b6c4c3b4556204445444e554f522052455454454c204c4c414d532043494c4c495259433b30384331,
0x343134303b3b343134303b3b3b4e3b3b3b3b3b4c3b303b6c4c3b45442044454747454c2d474e4f4c2052455454454c204c4c414d532043494c4c495259433b31384331,
0x453134303b3b453134303b3b3b4e3b3b3b3b3b4c3b303b6c4c3b4f20574f5252414e2052455454454c204c4c414d532043494c4c495259433b32384331,
0x313234303b3b313234303b3b3b4e3b3b3b3b3b4c3b303b6c4c3b534520454449572052455454454c204c4c414d532043494c4c495259433b33384331,
0x323234303b3b323234303b3b3b4e3b3b3b3b3b4c3b303b6c4c3b4554204c4c41542052455454454c204c4c414d532043494c4c495259433b34384331,
0x323234303b3b323234303b3b3b4e3b3b3b3b3b4c3b303b6c4c3b45542044454747454c2d45455248542052455454454c204c4c414d532043494c4c495259433b35384331,
0x413234303b3b413234303b3b3b4e3b3b3b3b3b4c3b303b6c4c3b4e4749532044524148204c4c41542052455454454c204c4c414d532043494c4c495259433b36384331,
0x323634303b3b323634303b3b3b4e3b3b3b3b3b4c3b303b6c4c3b544159204c4c41542052455454454c204c4c414d532043494c4c495259433b37384331,
0x413436413b3b413436413b3b3b4e3b3b3b3b3b4c3b303b6c4c3b4b55204445444e454c424e552052455454454c204c4c414d532043494c4c495259433b38384331,
0x3b3b3b3b3b4e3b3b3b3b3b4c3b303b6f503b41595255532055444e4942204e4f4954415554434e5550204553454e41444e55533b30434331,
0x3b3b3b3b3b4e3b3b3b3b3b4c3b303b6f503b474e4f4c474e41502055444e4942204e4f4954415554434e5550204553454e41444e55533b31434331,
0x3b3b3b3b3b4e3b3b3b3b3b4c3b303b6f503b414d414e5255502055444e4942204e4f4954415554434e5550204553454e41444e55533b32434331,
0x3b3b3b3b3b4e3b3b3b3b3b4c3b303b6f503b41524b41432055444e4942204e4f4954415554434e5550204553454e41444e55533b33434331,
0x3b3b3b3b3b4e3b3b3b3b3b4c3b303b6f503b41474e415441532055454c2055444e4942204e4f4954415554434e5550204553454e41444e55533b34434331,
0x3b3b3b3b3b4e3b3b3b3b3b4c3b303b6f503b41474e4154415320414b2055444e4942204e4f4954415554434e5550204553454e41444e55533b35434331,
0x3b3b3b3b3b4e3b3b3b3b3b4c3b303b6f503b41474e415441532041442055444e4942204e4f4954415554434e5550204553454e41444e55533b36434331,
0x3b3b3b3b3b4e3b3b3b3b3b4c3b303b6f503b41474e415441532041422055444e4942204e4f4954415554434e5550204553454e41444e55533b37434331,
0x3b3b3b3b3b4e3b3b3b3b3b4d534e3b3033323b6e4d3b414e41485352414b20454e4f542043494445563b30444331,
0x3b3b3b3b3b4e3b3b3b3b3b4d534e3b3033323b6e4d3b415241485320454e4f542043494445563b31444331,
0x3b3b3b3b3b4e3b3b3b3b3b4d534e3b3033323b6e4d3b41484b4e45525020454e4f542043494445563b32444331,
0x3b3b3b3b3b4e3b3b3b3b3b4c3b303b6f503b41534156485348494e204e4749532043494445563b33444331,
0x3b3b3b3b3b4e3b3b3b3b3b4d534e3b313b6e4d3b4154495241565320454e494c44494d20434944455652554a4159204e4749532043494445563b34444331,
0x3b3b3b3b3b4e3b3b3b3b3b4d534e3b3032323b6e4d3b4154495241565320544e45444e455045444e49204445544156415247474120434944455652554a415920454e4f542043494445563b35444331,
0x3b3b3b3b3b4e3b3b3b3b3b4d534e3b3032323b6e4d3b4154495241565320544e45444e455045444e4920434944455652554a415920454e4f542043494445563b36444331,
0x3b3b3b3b3b4e3b3b3b3b3b4d534e3b3032323b6e4d3b4154495241565320544e45444e455045444e4920414b414854414b20434944455652554a415920454e4f542043494445563b37444331,
0x3b3b3b3b3b4e3b3b3b3b3b4d534e3b3032323b6e4d3b574f4c4542204152444e414320454e4f542043494445563b38444331,
0x3b3b3b3b3b4e3b3b3b3b3b4d534e3b3032323b6e4d3b524544454f52484353204154495241565320544e45444e455045444e4920414b414854414b20434944455652554a415920454e4f542043494445563b39444331,
0x3b3b3b3b3b4e3b3b3b3b3b4d534e3b3033323b6e4d3b4154495241565320454c42554f4420454e4f542043494445563b41444331,
0x3b3b3b3b3b4e3b3b3b3b3b4d534e3b3033323b6e4d3b4154495241565320454c5049525420454e4f542043494445563b42444331,
0x3b3b3b3b3b4e3b3b3b3b3b4d534e3b3032323b6e4d3b4154544144554e4120414b414854414b20454e4f542043494445563b43444331,
0x3b3b3b3b3b4e3b3b3b3b3b4d534e3b3032323b6e4d3b574f4c454220544f4420454e4f542043494445563b44444331,
0x3b3b3b3b3b4e3b3b3b3b3b4d534e3b3032323b6e4d3b574f4c45422053544f44204f575420454e4f542043494445563b45444331,
0x3b3b3b3b3b4e3b3b3b3b3b4d534e3b3032323b6e4d3b574f4c45422053544f4420454552485420454e4f542043494445563b46444331,
0x3b3b3b3b3b4e3b3b3b3b3b4d534e3b3033323b6e4d3b4154495241565320544e45444e455045444e49204952494d4853414b20434944455647495220454e4f542043494445563b30454331,
0x3b3b3b3b3b4e3b3b3b3b3b4c3b303b634d3b4154495241565320544e45444e455045444e492043494445564156524148544120454e4f542043494445563b31454331,
0x3b3b3b3b3b4e3b3b3b3b3b4d534e3b313b6e4d3b415449524156532041475241534956204e4749532043494445563b32454331,
0x3b3b3b3b3b4e3b3b3b3b3b4d534e3b313b6e4d3b4154544144552041475241534956204e4749532043494445563b33454331,
0x3b3b3b3b3b4e3b3b3b3b3b4d534e3b313b6e4d3b4154544144552041475241534956204445535245564552204e4749532043494445563b34454331,
0x3b3b3b3b3b4e3b3b3b3b3b4d534e3b313b6e4d3b4154544144554e412041475241534956204e4749532043494445563b35454331,
0x3b3b3b3b3b4e3b3b3b3b3b4d534e3b313b6e4d3b4154544144554e412041475241534956204445535245564552204e4749532043494445563b36454331,
0x3b3b3b3b3b4e3b3b3b3b3b4d534e3b313b6e4d3b4c4941542048544957204154544144552041475241534956204e4749532043494445563b37454331]

/-- src/u5e/props/UnicodeData.txt lines 6401-6656. -/
def rawUcd25 : List Nat := [
0x3b3b3b3b3b4e3b3b3b3b3b4d534e3b313b6e4d3b4c4941542048544957204154544144554e412041475241534956204e4749532043494445563b38454331,
0x3b3b3b3b3b4e3b3b3b3b3b4c3b303b6f4c3b41484b554d4f475241544e41204152415653554e41204e4749532043494445563b39454331,
0x3b3b3b3b3b4e3b3b3b3b3b4c3b303b6f4c3b41484b554d4f475249484142204152415653554e41204e4749532043494445563b41454331,
0x3b3b3b3b3b4e3b3b3b3b3b4c3b303b6f4c3b41484b554d4f47414d4156204152415653554e41204e4749532043494445563b42454331,
0x3b3b3b3b3b4e3b3b3b3b3b4c3b303b6f4c3b4c49415420485449572041484b554d4f47414d4156204152415653554e41204e4749532043494445563b43454331,
0x3b3b3b3b3b4e3b3b3b3b3b4d534e3b3032323b6e4d3b4b4159524954204e4749532043494445563b44454331,
0x3b3b3b3b3b4e3b3b3b3b3b4c3b303b6f4c3b4152415653554e4120474e4f4c204d524f4649584548204e4749532043494445563b45454331,
0x3b3b3b3b3b4e3b3b3b3b3b4c3b303b6f4c3b4152415653554e4120474e4f4c204e4749532043494445563b46454331,
0x3b3b3b3b3b4e3b3b3b3b3b4c3b303b6f4c3b4152415653554e4120474e4f4c20474e41485452204e4749532043494445563b30464331,
0x3b3b3b3b3b4e3b3b3b3b3b4c3b303b6f4c3b41484b554d204f54415941484255204152415653554e41204e4749532043494445563b31464331,
0x3b3b3b3b3b4e3b3b3b3b3b4c3b303b634d3b414752415349564148445241204e4749532043494445563b32464331,
0x3b3b3b3b3b4e3b3b3b3b3b4c3b303b634d3b4147524153495641484452412044455441544f52204e4749532043494445563b33464331,
0x3b3b3b3b3b4e3b3b3b3b3b4d534e3b3033323b6e4d3b45564f4241204152444e414320454e4f542043494445563b34464331,
0x3b3b3b3b3b4e3b3b3b3b3b4c3b303b6f4c3b4159494c554d415648494a204e4749532043494445563b35464331,
0x3b3b3b3b3b4e3b3b3b3b3b4c3b303b6f4c3b4159494e414d4844415055204e4749532043494445563b36464331,
0x3b3b3b3b3b4e3b3b3b3b3b4d534e3b3033323b6e4d3b45564f424120474e495220454e4f542043494445563b38464331,
0x3b3b3b3b3b4e3b3b3b3b3b4d534e3b3033323b6e4d3b45564f424120474e495220454c42554f4420454e4f542043494445563b39464331,
0x3b3b3b3b3b4e3b3b3b3b3b4c3b303b6c4c3b41204c415449504143204c4c414d532052455454454c204e4954414c3b30304431,
0x3b3b3b3b3b4e3b3b3b3b3b4c3b303b6c4c3b4541204c415449504143204c4c414d532052455454454c204e4954414c3b31304431,
0x3b3b3b3b3b4e3b3b3b3b3b4c3b303b6c4c3b45412044454e5255542052455454454c204c4c414d53204e4954414c3b32304431,
0x3b3b3b3b3b4e3b3b3b3b3b4c3b303b6c4c3b4220444552524142204c415449504143204c4c414d532052455454454c204e4954414c3b33304431,
0x3b3b3b3b3b4e3b3b3b3b3b4c3b303b6c4c3b43204c415449504143204c4c414d532052455454454c204e4954414c3b34304431,
0x3b3b3b3b3b4e3b3b3b3b3b4c3b303b6c4c3b44204c415449504143204c4c414d532052455454454c204e4954414c3b35304431,
0x3b3b3b3b3b4e3b3b3b3b3b4c3b303b6c4c3b485445204c415449504143204c4c414d532052455454454c204e4954414c3b36304431,
0x3b3b3b3b3b4e3b3b3b3b3b4c3b303b6c4c3b45204c415449504143204c4c414d532052455454454c204e4954414c3b37304431,
0x3b3b3b3b3b4e3b3b3b3b3b4c3b303b6c4c3b45204e45504f2044454e5255542052455454454c204c4c414d53204e4954414c3b38304431,
0x3b3b3b3b3b4e3b3b3b3b3b4c3b303b6c4c3b492044454e5255542052455454454c204c4c414d53204e4954414c3b39304431,
0x3b3b3b3b3b4e3b3b3b3b3b4c3b303b6c4c3b4a204c415449504143204c4c414d532052455454454c204e4954414c3b41304431,
0x3b3b3b3b3b4e3b3b3b3b3b4c3b303b6c4c3b4b204c415449504143204c4c414d532052455454454c204e4954414c3b42304431,
0x3b3b3b3b3b4e3b3b3b3b3b4c3b303b6c4c3b454b4f5254532048544957204c204c415449504143204c4c414d532052455454454c204e4954414c3b43304431,
0x3b3b3b3b3b4e3b3b3b3b3b4c3b303b6c4c3b4d204c415449504143204c4c414d532052455454454c204e4954414c3b44304431,
0x3b3b3b3b3b4e3b3b3b3b3b4c3b303b6c4c3b4e204445535245564552204c415449504143204c4c414d532052455454454c204e4954414c3b45304431,
0x3b3b3b3b3b4e3b3b3b3b3b4c3b303b6c4c3b4f204c415449504143204c4c414d532052455454454c204e4954414c3b46304431,
0x3b3b3b3b3b4e3b3b3b3b3b4c3b303b6c4c3b4f204e45504f204c415449504143204c4c414d532052455454454c204e4954414c3b30314431,
0x3b3b3b3b3b4e3b3b3b3b3b4c3b303b6c4c3b4f2053594157454449532052455454454c204c4c414d53204e4954414c3b31314431,
0x3b3b3b3b3b4e3b3b3b3b3b4c3b303b6c4c3b4f204e45504f2053594157454449532052455454454c204c4c414d53204e4954414c3b32314431,
0x3b3b3b3b3b4e3b3b3b3b3b4c3b303b6c4c3b454b4f5254532048544957204f2053594157454449532052455454454c204c4c414d53204e4954414c3b33314431,
0x3b3b3b3b3b4e3b3b3b3b3b4c3b303b6c4c3b454f2044454e5255542052455454454c204c4c414d53204e4954414c3b34314431,
0x3b3b3b3b3b4e3b3b3b3b3b4c3b303b6c4c3b554f204c415449504143204c4c414d532052455454454c204e4954414c3b35314431,
0x3b3b3b3b3b4e3b3b3b3b3b4c3b303b6c4c3b4f20464c414820504f542052455454454c204c4c414d53204e4954414c3b36314431,
0x3b3b3b3b3b4e3b3b3b3b3b4c3b303b6c4c3b4f20464c4148204d4f54544f422052455454454c204c4c414d53204e4954414c3b37314431,
0x3b3b3b3b3b4e3b3b3b3b3b4c3b303b6c4c3b50204c415449504143204c4c414d532052455454454c204e4954414c3b38314431,
0x3b3b3b3b3b4e3b3b3b3b3b4c3b303b6c4c3b52204445535245564552204c415449504143204c4c414d532052455454454c204e4954414c3b39314431,
0x3b3b3b3b3b4e3b3b3b3b3b4c3b303b6c4c3b522044454e525554204c415449504143204c4c414d532052455454454c204e4954414c3b41314431,
0x3b3b3b3b3b4e3b3b3b3b3b4c3b303b6c4c3b54204c415449504143204c4c414d532052455454454c204e4954414c3b42314431,
0x3b3b3b3b3b4e3b3b3b3b3b4c3b303b6c4c3b55204c415449504143204c4c414d532052455454454c204e4954414c3b43314431,
0x3b3b3b3b3b4e3b3b3b3b3b4c3b303b6c4c3b552053594157454449532052455454454c204c4c414d53204e4954414c3b44314431,
0x3b3b3b3b3b4e3b3b3b3b3b4c3b303b6c4c3b552044455a49534552454149442053594157454449532052455454454c204c4c414d53204e4954414c3b45314431,
0x3b3b3b3b3b4e3b3b3b3b3b4c3b303b6c4c3b4d2044454e5255542053594157454449532052455454454c204c4c414d53204e4954414c3b46314431,
0x3b3b3b3b3b4e3b3b3b3b3b4c3b303b6c4c3b56204c415449504143204c4c414d532052455454454c204e4954414c3b30324431,
0x3b3b3b3b3b4e3b3b3b3b3b4c3b303b6c4c3b57204c415449504143204c4c414d532052455454454c204e4954414c3b31324431,
0x3b3b3b3b3b4e3b3b3b3b3b4c3b303b6c4c3b5a204c415449504143204c4c414d532052455454454c204e4954414c3b32324431,
0x3b3b3b3b3b4e3b3b3b3b3b4c3b303b6c4c3b485a45204c415449504143204c4c414d532052455454454c204e4954414c3b33324431,
0x3b3b3b3b3b4e3b3b3b3b3b4c3b303b6c4c3b544e4152495053204c4145474e5952414c20444543494f562052455454454c204e4954414c3b34324431,
0x3b3b3b3b3b4e3b3b3b3b3b4c3b303b6c4c3b4e49412052455454454c204e4954414c3b35324431,
0x3b3b3b3b3b4e3b3b3b3b3b4c3b303b6c4c3b414d4d4147204c415449504143204c4c414d532052455454454c204b454552473b36324431,
0x3b3b3b3b3b4e3b3b3b3b3b4c3b303b6c4c3b41444d414c204c415449504143204c4c414d532052455454454c204b454552473b37324431,
0x3b3b3b3b3b4e3b3b3b3b3b4c3b303b6c4c3b4950204c415449504143204c4c414d532052455454454c204b454552473b38324431,
0x3b3b3b3b3b4e3b3b3b3b3b4c3b303b6c4c3b4f4852204c415449504143204c4c414d532052455454454c204b454552473b39324431,
0x3b3b3b3b3b4e3b3b3b3b3b4c3b303b6c4c3b495350204c415449504143204c4c414d532052455454454c204b454552473b41324431,
0x3b3b3b3b3b4e3b3b3b3b3b4c3b303b6c4c3b4c45204c415449504143204c4c414d532052455454454c2043494c4c495259433b42324431,
0x3b3b3b3b3b4e3b3b3b3b31343030203e72657075733c3b4c3b303b6d4c3b41204c4154495041432052455454454c205245494649444f4d3b43324431,
0x3b3b3b3b3b4e3b3b3b3b36433030203e72657075733c3b4c3b303b6d4c3b4541204c4154495041432052455454454c205245494649444f4d3b44324431,
0x3b3b3b3b3b4e3b3b3b3b32343030203e72657075733c3b4c3b303b6d4c3b42204c4154495041432052455454454c205245494649444f4d3b45324431,
0x3b3b3b3b3b4e3b3b3b3b3b4c3b303b6d4c3b4220444552524142204c4154495041432052455454454c205245494649444f4d3b46324431,
0x3b3b3b3b3b4e3b3b3b3b34343030203e72657075733c3b4c3b303b6d4c3b44204c4154495041432052455454454c205245494649444f4d3b30334431,
0x3b3b3b3b3b4e3b3b3b3b35343030203e72657075733c3b4c3b303b6d4c3b45204c4154495041432052455454454c205245494649444f4d3b31334431,
0x3b3b3b3b3b4e3b3b3b3b45383130203e72657075733c3b4c3b303b6d4c3b45204445535245564552204c4154495041432052455454454c205245494649444f4d3b32334431,
0x3b3b3b3b3b4e3b3b3b3b37343030203e72657075733c3b4c3b303b6d4c3b47204c4154495041432052455454454c205245494649444f4d3b33334431,
0x3b3b3b3b3b4e3b3b3b3b38343030203e72657075733c3b4c3b303b6d4c3b48204c4154495041432052455454454c205245494649444f4d3b34334431,
0x3b3b3b3b3b4e3b3b3b3b39343030203e72657075733c3b4c3b303b6d4c3b49204c4154495041432052455454454c205245494649444f4d3b35334431,
0x3b3b3b3b3b4e3b3b3b3b41343030203e72657075733c3b4c3b303b6d4c3b4a204c4154495041432052455454454c205245494649444f4d3b36334431,
0x3b3b3b3b3b4e3b3b3b3b42343030203e72657075733c3b4c3b303b6d4c3b4b204c4154495041432052455454454c205245494649444f4d3b37334431,
0x3b3b3b3b3b4e3b3b3b3b43343030203e72657075733c3b4c3b303b6d4c3b4c204c4154495041432052455454454c205245494649444f4d3b38334431,
0x3b3b3b3b3b4e3b3b3b3b44343030203e72657075733c3b4c3b303b6d4c3b4d204c4154495041432052455454454c205245494649444f4d3b39334431,
0x3b3b3b3b3b4e3b3b3b3b45343030203e72657075733c3b4c3b303b6d4c3b4e204c4154495041432052455454454c205245494649444f4d3b41334431,
0x3b3b3b3b3b4e3b3b3b3b3b4c3b303b6d4c3b4e204445535245564552204c4154495041432052455454454c205245494649444f4d3b42334431,
0x3b3b3b3b3b4e3b3b3b3b46343030203e72657075733c3b4c3b303b6d4c3b4f204c4154495041432052455454454c205245494649444f4d3b43334431,
0x3b3b3b3b3b4e3b3b3b3b32323230203e72657075733c3b4c3b303b6d4c3b554f204c4154495041432052455454454c205245494649444f4d3b44334431,
0x3b3b3b3b3b4e3b3b3b3b30353030203e72657075733c3b4c3b303b6d4c3b50204c4154495041432052455454454c205245494649444f4d3b45334431,
0x3b3b3b3b3b4e3b3b3b3b32353030203e72657075733c3b4c3b303b6d4c3b52204c4154495041432052455454454c205245494649444f4d3b46334431,
0x3b3b3b3b3b4e3b3b3b3b34353030203e72657075733c3b4c3b303b6d4c3b54204c4154495041432052455454454c205245494649444f4d3b30344431,
0x3b3b3b3b3b4e3b3b3b3b35353030203e72657075733c3b4c3b303b6d4c3b55204c4154495041432052455454454c205245494649444f4d3b31344431,
0x3b3b3b3b3b4e3b3b3b3b37353030203e72657075733c3b4c3b303b6d4c3b57204c4154495041432052455454454c205245494649444f4d3b32344431,
0x3b3b3b3b3b4e3b3b3b3b31363030203e72657075733c3b4c3b303b6d4c3b41204c4c414d532052455454454c205245494649444f4d3b33344431,
0x3b3b3b3b3b4e3b3b3b3b30353230203e72657075733c3b4c3b303b6d4c3b412044454e525554204c4c414d532052455454454c205245494649444f4d3b34344431,
0x3b3b3b3b3b4e3b3b3b3b31353230203e72657075733c3b4c3b303b6d4c3b4148504c41204c4c414d532052455454454c205245494649444f4d3b35344431,
0x3b3b3b3b3b4e3b3b3b3b32304431203e72657075733c3b4c3b303b6d4c3b45412044454e525554204c4c414d532052455454454c205245494649444f4d3b36344431,
0x3b3b3b3b3b4e3b3b3b3b32363030203e72657075733c3b4c3b303b6d4c3b42204c4c414d532052455454454c205245494649444f4d3b37344431,
0x3b3b3b3b3b4e3b3b3b3b34363030203e72657075733c3b4c3b303b6d4c3b44204c4c414d532052455454454c205245494649444f4d3b38344431,
0x3b3b3b3b3b4e3b3b3b3b35363030203e72657075733c3b4c3b303b6d4c3b45204c4c414d532052455454454c205245494649444f4d3b39344431,
0x3b3b3b3b3b4e3b3b3b3b39353230203e72657075733c3b4c3b303b6d4c3b4157484353204c4c414d532052455454454c205245494649444f4d3b41344431,
0x3b3b3b3b3b4e3b3b3b3b42353230203e72657075733c3b4c3b303b6d4c3b45204e45504f204c4c414d532052455454454c205245494649444f4d3b42344431,
0x3b3b3b3b3b4e3b3b3b3b43353230203e72657075733c3b4c3b303b6d4c3b45204e45504f2044454e525554204c4c414d532052455454454c205245494649444f4d3b43344431,
0x3b3b3b3b3b4e3b3b3b3b37363030203e72657075733c3b4c3b303b6d4c3b47204c4c414d532052455454454c205245494649444f4d3b44344431,
0x3b3b3b3b3b4e3b3b3b3b3b4c3b303b6d4c3b492044454e525554204c4c414d532052455454454c205245494649444f4d3b45344431,
0x3b3b3b3b3b4e3b3b3b3b42363030203e72657075733c3b4c3b303b6d4c3b4b204c4c414d532052455454454c205245494649444f4d3b46344431,
0x3b3b3b3b3b4e3b3b3b3b44363030203e72657075733c3b4c3b303b6d4c3b4d204c4c414d532052455454454c205245494649444f4d3b30354431,
0x3b3b3b3b3b4e3b3b3b3b42343130203e72657075733c3b4c3b303b6d4c3b474e45204c4c414d532052455454454c205245494649444f4d3b31354431,
0x3b3b3b3b3b4e3b3b3b3b46363030203e72657075733c3b4c3b303b6d4c3b4f204c4c414d532052455454454c205245494649444f4d3b32354431,
0x3b3b3b3b3b4e3b3b3b3b34353230203e72657075733c3b4c3b303b6d4c3b4f204e45504f204c4c414d532052455454454c205245494649444f4d3b33354431,
0x3b3b3b3b3b4e3b3b3b3b36314431203e72657075733c3b4c3b303b6d4c3b4f20464c414820504f54204c4c414d532052455454454c205245494649444f4d3b34354431,
0x3b3b3b3b3b4e3b3b3b3b37314431203e72657075733c3b4c3b303b6d4c3b4f20464c4148204d4f54544f42204c4c414d532052455454454c205245494649444f4d3b35354431,
0x3b3b3b3b3b4e3b3b3b3b30373030203e72657075733c3b4c3b303b6d4c3b50204c4c414d532052455454454c205245494649444f4d3b36354431,
0x3b3b3b3b3b4e3b3b3b3b34373030203e72657075733c3b4c3b303b6d4c3b54204c4c414d532052455454454c205245494649444f4d3b37354431,
0x3b3b3b3b3b4e3b3b3b3b35373030203e72657075733c3b4c3b303b6d4c3b55204c4c414d532052455454454c205245494649444f4d3b38354431,
0x3b3b3b3b3b4e3b3b3b3b44314431203e72657075733c3b4c3b303b6d4c3b55205359415745444953204c4c414d532052455454454c205245494649444f4d3b39354431,
0x3b3b3b3b3b4e3b3b3b3b46363230203e72657075733c3b4c3b303b6d4c3b4d2044454e525554204c4c414d532052455454454c205245494649444f4d3b41354431,
0x3b3b3b3b3b4e3b3b3b3b36373030203e72657075733c3b4c3b303b6d4c3b56204c4c414d532052455454454c205245494649444f4d3b42354431,
0x3b3b3b3b3b4e3b3b3b3b35324431203e72657075733c3b4c3b303b6d4c3b4e4941204c4c414d532052455454454c205245494649444f4d3b43354431,
0x3b3b3b3b3b4e3b3b3b3b32423330203e72657075733c3b4c3b303b6d4c3b41544542204c4c414d532052455454454c205245494649444f4d3b44354431,
0x3b3b3b3b3b4e3b3b3b3b33423330203e72657075733c3b4c3b303b6d4c3b414d4d4147204b45455247204c4c414d532052455454454c205245494649444f4d3b45354431,
0x3b3b3b3b3b4e3b3b3b3b34423330203e72657075733c3b4c3b303b6d4c3b41544c4544204c4c414d532052455454454c205245494649444f4d3b46354431,
0x3b3b3b3b3b4e3b3b3b3b36433330203e72657075733c3b4c3b303b6d4c3b494850204b45455247204c4c414d532052455454454c205245494649444f4d3b30364431,
0x3b3b3b3b3b4e3b3b3b3b37433330203e72657075733c3b4c3b303b6d4c3b494843204c4c414d532052455454454c205245494649444f4d3b31364431,
0x3b3b3b3b3b4e3b3b3b3b39363030203e6275733c3b4c3b303b6d4c3b492052455454454c204c4c414d5320545049524353425553204e4954414c3b32364431,
0x3b3b3b3b3b4e3b3b3b3b32373030203e6275733c3b4c3b303b6d4c3b522052455454454c204c4c414d5320545049524353425553204e4954414c3b33364431,
0x3b3b3b3b3b4e3b3b3b3b35373030203e6275733c3b4c3b303b6d4c3b552052455454454c204c4c414d5320545049524353425553204e4954414c3b34364431,
0x3b3b3b3b3b4e3b3b3b3b36373030203e6275733c3b4c3b303b6d4c3b562052455454454c204c4c414d5320545049524353425553204e4954414c3b35364431,
0x3b3b3b3b3b4e3b3b3b3b32423330203e6275733c3b4c3b303b6d4c3b415445422052455454454c204c4c414d5320545049524353425553204b454552473b36364431,
0x3b3b3b3b3b4e3b3b3b3b33423330203e6275733c3b4c3b303b6d4c3b414d4d41472052455454454c204c4c414d5320545049524353425553204b454552473b37364431,
0x3b3b3b3b3b4e3b3b3b3b31433330203e6275733c3b4c3b303b6d4c3b4f48522052455454454c204c4c414d5320545049524353425553204b454552473b38364431,
0x3b3b3b3b3b4e3b3b3b3b36433330203e6275733c3b4c3b303b6d4c3b4948502052455454454c204c4c414d5320545049524353425553204b454552473b39364431,
0x3b3b3b3b3b4e3b3b3b3b37433330203e6275733c3b4c3b303b6d4c3b4948432052455454454c204c4c414d5320545049524353425553204b454552473b41364431,
0x3b3b3b3b3b4e3b3b3b3b3b4c3b303b6c4c3b45552052455454454c204c4c414d53204e4954414c3b42364431,
0x3b3b3b3b3b4e3b3b3b3b3b4c3b303b6c4c3b45444c495420454c4444494d204854495720422052455454454c204c4c414d53204e4954414c3b43364431,
0x3b3b3b3b3b4e3b3b3b3b3b4c3b303b6c4c3b45444c495420454c4444494d204854495720442052455454454c204c4c414d53204e4954414c3b44364431,
0x3b3b3b3b3b4e3b3b3b3b3b4c3b303b6c4c3b45444c495420454c4444494d204854495720462052455454454c204c4c414d53204e4954414c3b45364431,
0x3b3b3b3b3b4e3b3b3b3b3b4c3b303b6c4c3b45444c495420454c4444494d2048544957204d2052455454454c204c4c414d53204e4954414c3b46364431,
0x3b3b3b3b3b4e3b3b3b3b3b4c3b303b6c4c3b45444c495420454c4444494d2048544957204e2052455454454c204c4c414d53204e4954414c3b30374431,
0x3b3b3b3b3b4e3b3b3b3b3b4c3b303b6c4c3b45444c495420454c4444494d204854495720502052455454454c204c4c414d53204e4954414c3b31374431,
0x3b3b3b3b3b4e3b3b3b3b3b4c3b303b6c4c3b45444c495420454c4444494d204854495720522052455454454c204c4c414d53204e4954414c3b32374431,
0x3b3b3b3b3b4e3b3b3b3b3b4c3b303b6c4c3b45444c495420454c4444494d20444e41204b4f4f4848534946204854495720522052455454454c204c4c414d53204e4954414c3b33374431,
0x3b3b3b3b3b4e3b3b3b3b3b4c3b303b6c4c3b45444c495420454c4444494d204854495720532052455454454c204c4c414d53204e4954414c3b34374431,
0x3b3b3b3b3b4e3b3b3b3b3b4c3b303b6c4c3b45444c495420454c4444494d204854495720542052455454454c204c4c414d53204e4954414c3b35374431,
0x3b3b3b3b3b4e3b3b3b3b3b4c3b303b6c4c3b45444c495420454c4444494d2048544957205a2052455454454c204c4c414d53204e4954414c3b36374431,
0x3b3b3b3b3b4e3b3b3b3b3b4c3b303b6c4c3b472044454e5255542052455454454c204c4c414d53204e4954414c3b37374431,
0x3b3b3b3b3b4e3b3b3b3b44333430203e72657075733c3b4c3b303b6d4c3b4e452043494c4c495259432052455454454c205245494649444f4d3b38374431,
0x443737413b3b443737413b3b3b4e3b3b3b3b3b4c3b303b6c4c3b472052414c55534e492052455454454c204c4c414d53204e4954414c3b39374431,
0x3b3b3b3b3b4e3b3b3b3b3b4c3b303b6c4c3b4847554f524854454b4952545320485449572048542052455454454c204c4c414d53204e4954414c3b41374431,
0x3b3b3b3b3b4e3b3b3b3b3b4c3b303b6c4c3b454b4f525453204854495720492052455454454c204c415449504143204c4c414d53204e4954414c3b42374431,
0x3b3b3b3b3b4e3b3b3b3b3b4c3b303b6c4c3b454b4f52545320485449572041544f492052455454454c204c4c414d53204e4954414c3b43374431,
0x333643323b3b333643323b3b3b4e3b3b3b3b3b4c3b303b6c4c3b454b4f525453204854495720502052455454454c204c4c414d53204e4954414c3b44374431,
0x3b3b3b3b3b4e3b3b3b3b3b4c3b303b6c4c3b454b4f525453204854495720552052455454454c204c415449504143204c4c414d53204e4954414c3b45374431,
0x3b3b3b3b3b4e3b3b3b3b3b4c3b303b6c4c3b454b4f5254532048544957204e4f4c495350552052455454454c204c4c414d53204e4954414c3b46374431,
0x3b3b3b3b3b4e3b3b3b3b3b4c3b303b6c4c3b4b4f4f48204c4154414c4150204854495720422052455454454c204c4c414d53204e4954414c3b30384431,
0x3b3b3b3b3b4e3b3b3b3b3b4c3b303b6c4c3b4b4f4f48204c4154414c4150204854495720442052455454454c204c4c414d53204e4954414c3b31384431,
0x3b3b3b3b3b4e3b3b3b3b3b4c3b303b6c4c3b4b4f4f48204c4154414c4150204854495720462052455454454c204c4c414d53204e4954414c3b32384431,
0x3b3b3b3b3b4e3b3b3b3b3b4c3b303b6c4c3b4b4f4f48204c4154414c4150204854495720472052455454454c204c4c414d53204e4954414c3b33384431,
0x3b3b3b3b3b4e3b3b3b3b3b4c3b303b6c4c3b4b4f4f48204c4154414c41502048544957204b2052455454454c204c4c414d53204e4954414c3b34384431,
0x3b3b3b3b3b4e3b3b3b3b3b4c3b303b6c4c3b4b4f4f48204c4154414c41502048544957204c2052455454454c204c4c414d53204e4954414c3b35384431,
0x3b3b3b3b3b4e3b3b3b3b3b4c3b303b6c4c3b4b4f4f48204c4154414c41502048544957204d2052455454454c204c4c414d53204e4954414c3b36384431,
0x3b3b3b3b3b4e3b3b3b3b3b4c3b303b6c4c3b4b4f4f48204c4154414c41502048544957204e2052455454454c204c4c414d53204e4954414c3b37384431,
0x3b3b3b3b3b4e3b3b3b3b3b4c3b303b6c4c3b4b4f4f48204c4154414c4150204854495720502052455454454c204c4c414d53204e4954414c3b38384431,
0x3b3b3b3b3b4e3b3b3b3b3b4c3b303b6c4c3b4b4f4f48204c4154414c4150204854495720522052455454454c204c4c414d53204e4954414c3b39384431,
0x3b3b3b3b3b4e3b3b3b3b3b4c3b303b6c4c3b4b4f4f48204c4154414c4150204854495720532052455454454c204c4c414d53204e4954414c3b41384431,
0x3b3b3b3b3b4e3b3b3b3b3b4c3b303b6c4c3b4b4f4f48204c4154414c41502048544957204853452052455454454c204c4c414d53204e4954414c3b42384431,
0x3b3b3b3b3b4e3b3b3b3b3b4c3b303b6c4c3b4b4f4f48204c4154414c4150204854495720562052455454454c204c4c414d53204e4954414c3b43384431,
0x3b3b3b3b3b4e3b3b3b3b3b4c3b303b6c4c3b4b4f4f48204c4154414c4150204854495720582052455454454c204c4c414d53204e4954414c3b44384431,
0x3b3b3b3b3b4e3b3b3b3b3b4c3b303b6c4c3b4b4f4f48204c4154414c41502048544957205a2052455454454c204c4c414d53204e4954414c3b45384431,
0x3b3b3b3b3b4e3b3b3b3b3b4c3b303b6c4c3b4b4f4f482058454c464f52544552204854495720412052455454454c204c4c414d53204e4954414c3b46384431,
0x3b3b3b3b3b4e3b3b3b3b3b4c3b303b6c4c3b4b4f4f482058454c464f525445522048544957204148504c412052455454454c204c4c414d53204e4954414c3b30394431,
0x3b3b3b3b3b4e3b3b3b3b3b4c3b303b6c4c3b4c49415420444e41204b4f4f48204854495720442052455454454c204c4c414d53204e4954414c3b31394431,
0x3b3b3b3b3b4e3b3b3b3b3b4c3b303b6c4c3b4b4f4f482058454c464f52544552204854495720452052455454454c204c4c414d53204e4954414c3b32394431,
0x3b3b3b3b3b4e3b3b3b3b3b4c3b303b6c4c3b4b4f4f482058454c464f5254455220485449572045204e45504f2052455454454c204c4c414d53204e4954414c3b33394431,
0x3b3b3b3b3b4e3b3b3b3b3b4c3b303b6c4c3b4b4f4f482058454c464f5254455220485449572045204e45504f2044455352455645522052455454454c204c4c414d53204e4954414c3b34394431,
0x3b3b3b3b3b4e3b3b3b3b3b4c3b303b6c4c3b4b4f4f482058454c464f5254455220485449572041574843532052455454454c204c4c414d53204e4954414c3b35394431,
0x3b3b3b3b3b4e3b3b3b3b3b4c3b303b6c4c3b4b4f4f482058454c464f52544552204854495720492052455454454c204c4c414d53204e4954414c3b36394431,
0x3b3b3b3b3b4e3b3b3b3b3b4c3b303b6c4c3b4b4f4f482058454c464f525445522048544957204f204e45504f2052455454454c204c4c414d53204e4954414c3b37394431,
0x3b3b3b3b3b4e3b3b3b3b3b4c3b303b6c4c3b4b4f4f482058454c464f525445522048544957204853452052455454454c204c4c414d53204e4954414c3b38394431,
0x3b3b3b3b3b4e3b3b3b3b3b4c3b303b6c4c3b4b4f4f482058454c464f52544552204854495720552052455454454c204c4c414d53204e4954414c3b39394431,
0x3b3b3b3b3b4e3b3b3b3b3b4c3b303b6c4c3b4b4f4f482058454c464f52544552204854495720485a452052455454454c204c4c414d53204e4954414c3b41394431,
0x3b3b3b3b3b4e3b3b3b3b32353230203e72657075733c3b4c3b303b6d4c3b4148504c412044454e525554204c4c414d532052455454454c205245494649444f4d3b42394431,
0x3b3b3b3b3b4e3b3b3b3b33363030203e72657075733c3b4c3b303b6d4c3b43204c4c414d532052455454454c205245494649444f4d3b43394431,
0x3b3b3b3b3b4e3b3b3b3b35353230203e72657075733c3b4c3b303b6d4c3b4c52554320485449572043204c4c414d532052455454454c205245494649444f4d3b44394431,
0x3b3b3b3b3b4e3b3b3b3b30463030203e72657075733c3b4c3b303b6d4c3b485445204c4c414d532052455454454c205245494649444f4d3b45394431,
0x3b3b3b3b3b4e3b3b3b3b43353230203e72657075733c3b4c3b303b6d4c3b45204e45504f204445535245564552204c4c414d532052455454454c205245494649444f4d3b46394431,
0x3b3b3b3b3b4e3b3b3b3b36363030203e72657075733c3b4c3b303b6d4c3b46204c4c414d532052455454454c205245494649444f4d3b30414431,
0x3b3b3b3b3b4e3b3b3b3b46353230203e72657075733c3b4c3b303b6d4c3b454b4f5254532048544957204a205353454c544f44204c4c414d532052455454454c205245494649444f4d3b31414431,
0x3b3b3b3b3b4e3b3b3b3b31363230203e72657075733c3b4c3b303b6d4c3b4720545049524353204c4c414d532052455454454c205245494649444f4d3b32414431,
0x3b3b3b3b3b4e3b3b3b3b35363230203e72657075733c3b4c3b303b6d4c3b482044454e525554204c4c414d532052455454454c205245494649444f4d3b33414431,
0x3b3b3b3b3b4e3b3b3b3b38363230203e72657075733c3b4c3b303b6d4c3b454b4f52545320485449572049204c4c414d532052455454454c205245494649444f4d3b34414431,
0x3b3b3b3b3b4e3b3b3b3b39363230203e72657075733c3b4c3b303b6d4c3b41544f49204c4c414d532052455454454c205245494649444f4d3b35414431,
0x3b3b3b3b3b4e3b3b3b3b41363230203e72657075733c3b4c3b303b6d4c3b49204c415449504143204c4c414d532052455454454c205245494649444f4d3b36414431,
0x3b3b3b3b3b4e3b3b3b3b42374431203e72657075733c3b4c3b303b6d4c3b454b4f52545320485449572049204c415449504143204c4c414d532052455454454c205245494649444f4d3b37414431,
0x3b3b3b3b3b4e3b3b3b3b44393230203e72657075733c3b4c3b303b6d4c3b4c4941542d444553534f52432048544957204a204c4c414d532052455454454c205245494649444f4d3b38414431,
0x3b3b3b3b3b4e3b3b3b3b44363230203e72657075733c3b4c3b303b6d4c3b4b4f4f482058454c464f525445522048544957204c204c4c414d532052455454454c205245494649444f4d3b39414431,
0x3b3b3b3b3b4e3b3b3b3b35384431203e72657075733c3b4c3b303b6d4c3b4b4f4f48204c4154414c41502048544957204c204c4c414d532052455454454c205245494649444f4d3b41414431,
0x3b3b3b3b3b4e3b3b3b3b46393230203e72657075733c3b4c3b303b6d4c3b4c204c415449504143204c4c414d532052455454454c205245494649444f4d3b42414431,
0x3b3b3b3b3b4e3b3b3b3b31373230203e72657075733c3b4c3b303b6d4c3b4b4f4f482048544957204d204c4c414d532052455454454c205245494649444f4d3b43414431,
0x3b3b3b3b3b4e3b3b3b3b30373230203e72657075733c3b4c3b303b6d4c3b47454c20474e4f4c2048544957204d2044454e525554204c4c414d532052455454454c205245494649444f4d3b44414431,
0x3b3b3b3b3b4e3b3b3b3b32373230203e72657075733c3b4c3b303b6d4c3b4b4f4f48205446454c2048544957204e204c4c414d532052455454454c205245494649444f4d3b45414431,
0x3b3b3b3b3b4e3b3b3b3b33373230203e72657075733c3b4c3b303b6d4c3b4b4f4f482058454c464f525445522048544957204e204c4c414d532052455454454c205245494649444f4d3b46414431,
0x3b3b3b3b3b4e3b3b3b3b34373230203e72657075733c3b4c3b303b6d4c3b4e204c415449504143204c4c414d532052455454454c205245494649444f4d3b30424431,
0x3b3b3b3b3b4e3b3b3b3b35373230203e72657075733c3b4c3b303b6d4c3b4f20444552524142204c4c414d532052455454454c205245494649444f4d3b31424431,
0x3b3b3b3b3b4e3b3b3b3b38373230203e72657075733c3b4c3b303b6d4c3b494850204c4c414d532052455454454c205245494649444f4d3b32424431,
0x3b3b3b3b3b4e3b3b3b3b32383230203e72657075733c3b4c3b303b6d4c3b4b4f4f4820485449572053204c4c414d532052455454454c205245494649444f4d3b33424431,
0x3b3b3b3b3b4e3b3b3b3b33383230203e72657075733c3b4c3b303b6d4c3b485345204c4c414d532052455454454c205245494649444f4d3b34424431,
0x3b3b3b3b3b4e3b3b3b3b42413130203e72657075733c3b4c3b303b6d4c3b4b4f4f48204c4154414c415020485449572054204c4c414d532052455454454c205245494649444f4d3b35424431,
0x3b3b3b3b3b4e3b3b3b3b39383230203e72657075733c3b4c3b303b6d4c3b5241422055204c4c414d532052455454454c205245494649444f4d3b36424431,
0x3b3b3b3b3b4e3b3b3b3b41383230203e72657075733c3b4c3b303b6d4c3b4e4f4c49535055204c4c414d532052455454454c205245494649444f4d3b37424431,
0x3b3b3b3b3b4e3b3b3b3b43314431203e72657075733c3b4c3b303b6d4c3b55204c415449504143204c4c414d532052455454454c205245494649444f4d3b38424431,
0x3b3b3b3b3b4e3b3b3b3b42383230203e72657075733c3b4c3b303b6d4c3b4b4f4f4820485449572056204c4c414d532052455454454c205245494649444f4d3b39424431,
0x3b3b3b3b3b4e3b3b3b3b43383230203e72657075733c3b4c3b303b6d4c3b562044454e525554204c4c414d532052455454454c205245494649444f4d3b41424431,
0x3b3b3b3b3b4e3b3b3b3b41373030203e72657075733c3b4c3b303b6d4c3b5a204c4c414d532052455454454c205245494649444f4d3b42424431,
0x3b3b3b3b3b4e3b3b3b3b30393230203e72657075733c3b4c3b303b6d4c3b4b4f4f482058454c464f525445522048544957205a204c4c414d532052455454454c205245494649444f4d3b43424431,
0x3b3b3b3b3b4e3b3b3b3b31393230203e72657075733c3b4c3b303b6d4c3b4c5255432048544957205a204c4c414d532052455454454c205245494649444f4d3b44424431,
0x3b3b3b3b3b4e3b3b3b3b32393230203e72657075733c3b4c3b303b6d4c3b485a45204c4c414d532052455454454c205245494649444f4d3b45424431,
0x3b3b3b3b3b4e3b3b3b3b38423330203e72657075733c3b4c3b303b6d4c3b4154454854204c4c414d532052455454454c205245494649444f4d3b46424431,
0x3b3b3b3b3b4e3b3b3b3b3b4d534e3b3033323b6e4d3b544e4543434120455641524720444554544f4420474e494e49424d4f433b30434431,
0x3b3b3b3b3b4e3b3b3b3b3b4d534e3b3033323b6e4d3b544e4543434120455455434120444554544f4420474e494e49424d4f433b31434431,
0x3b3b3b3b3b4e3b3b3b3b3b4d534e3b3032323b6e4d3b574f4c454220454b414e5320474e494e49424d4f433b32434431,
0x3b3b3b3b3b4e3b3b3b3b3b4d534e3b3033323b6e4d3b4b52414d204e4f49534e455053555320474e494e49424d4f433b33434431,
0x3b3b3b3b3b4e3b3b3b3b3b4d534e3b3033323b6e4d3b45545543412d4e4f5243414d20474e494e49424d4f433b34434431,
0x3b3b3b3b3b4e3b3b3b3b3b4d534e3b3033323b6e4d3b4e4f5243414d2d455641524720474e494e49424d4f433b35434431,
0x3b3b3b3b3b4e3b3b3b3b3b4d534e3b3033323b6e4d3b45564152472d4e4f5243414d20474e494e49424d4f433b36434431,
0x3b3b3b3b3b4e3b3b3b3b3b4d534e3b3033323b6e4d3b4e4f5243414d2d455455434120474e494e49424d4f433b37434431,
0x3b3b3b3b3b4e3b3b3b3b3b4d534e3b3033323b6e4d3b45564152472d45545543412d455641524720474e494e49424d4f433b38434431,
0x3b3b3b3b3b4e3b3b3b3b3b4d534e3b3033323b6e4d3b45545543412d45564152472d455455434120474e494e49424d4f433b39434431,
0x3b3b3b3b3b4e3b3b3b3b3b4d534e3b3032323b6e4d3b574f4c454220522052455454454c204c4c414d53204e4954414c20474e494e49424d4f433b41434431,
0x3b3b3b3b3b4e3b3b3b3b3b4d534e3b3033323b6e4d3b4e4f5243414d2d455645524220474e494e49424d4f433b42434431,
0x3b3b3b3b3b4e3b3b3b3b3b4d534e3b3033323b6e4d3b45564552422d4e4f5243414d20474e494e49424d4f433b43434431,
0x3b3b3b3b3b4e3b3b3b3b3b4d534e3b3433323b6e4d3b45564f42412058454c464d554352494320454c42554f4420474e494e49424d4f433b44434431,
0x3b3b3b3b3b4e3b3b3b3b3b4d534e3b3431323b6e4d3b45564f4241204b454e4f474f20474e494e49424d4f433b45434431,
0x3b3b3b3b3b4e3b3b3b3b3b4d534e3b3032323b6e4d3b574f4c45422047415a47495a20474e494e49424d4f433b46434431,
0x3b3b3b3b3b4e3b3b3b3b3b4d534e3b3230323b6e4d3b574f4c454220534920474e494e49424d4f433b30444431,
0x3b3b3b3b3b4e3b3b3b3b3b4d534e3b3033323b6e4d3b45564f424120525520474e494e49424d4f433b31444431,
0x3b3b3b3b3b4e3b3b3b3b3b4d534e3b3033323b6e4d3b45564f424120535520474e494e49424d4f433b32444431,
0x3b3b3b3b3b4e3b3b3b3b3b4d534e3b3033323b6e4d3b45564f42412041204e45504f2044454e455454414c462052455454454c204c4c414d53204e4954414c20474e494e49424d4f433b33444431,
0x3b3b3b3b3b4e3b3b3b3b3b4d534e3b3033323b6e4d3b45412052455454454c204c4c414d53204e4954414c20474e494e49424d4f433b34444431,
0x3b3b3b3b3b4e3b3b3b3b3b4d534e3b3033323b6e4d3b4f412052455454454c204c4c414d53204e4954414c20474e494e49424d4f433b35444431,
0x3b3b3b3b3b4e3b3b3b3b3b4d534e3b3033323b6e4d3b56412052455454454c204c4c414d53204e4954414c20474e494e49424d4f433b36444431,
0x3b3b3b3b3b4e3b3b3b3b3b4d534e3b3033323b6e4d3b414c4c4944454320432052455454454c204c4c414d53204e4954414c20474e494e49424d4f433b37444431,
0x3b3b3b3b3b4e3b3b3b3b3b4d534e3b3033323b6e4d3b442052414c55534e492052455454454c204c4c414d53204e4954414c20474e494e49424d4f433b38444431,
0x3b3b3b3b3b4e3b3b3b3b3b4d534e3b3033323b6e4d3b4854452052455454454c204c4c414d53204e4954414c20474e494e49424d4f433b39444431,
0x3b3b3b3b3b4e3b3b3b3b3b4d534e3b3033323b6e4d3b472052455454454c204c4c414d53204e4954414c20474e494e49424d4f433b41444431,
0x3b3b3b3b3b4e3b3b3b3b3b4d534e3b3033323b6e4d3b47204c415449504143204c4c414d532052455454454c204e4954414c20474e494e49424d4f433b42444431,
0x3b3b3b3b3b4e3b3b3b3b3b4d534e3b3033323b6e4d3b4b2052455454454c204c4c414d53204e4954414c20474e494e49424d4f433b43444431,
0x3b3b3b3b3b4e3b3b3b3b3b4d534e3b3033323b6e4d3b4c2052455454454c204c4c414d53204e4954414c20474e494e49424d4f433b44444431,
0x3b3b3b3b3b4e3b3b3b3b3b4d534e3b3033323b6e4d3b4c204c415449504143204c4c414d532052455454454c204e4954414c20474e494e49424d4f433b45444431,
0x3b3b3b3b3b4e3b3b3b3b3b4d534e3b3033323b6e4d3b4d204c415449504143204c4c414d532052455454454c204e4954414c20474e494e49424d4f433b46444431,
0x3b3b3b3b3b4e3b3b3b3b3b4d534e3b3033323b6e4d3b4e2052455454454c204c4c414d53204e4954414c20474e494e49424d4f433b30454431,
0x3b3b3b3b3b4e3b3b3b3b3b4d534e3b3033323b6e4d3b4e204c415449504143204c4c414d532052455454454c204e4954414c20474e494e49424d4f433b31454431,
0x3b3b3b3b3b4e3b3b3b3b3b4d534e3b3033323b6e4d3b52204c415449504143204c4c414d532052455454454c204e4954414c20474e494e49424d4f433b32454431,
0x3b3b3b3b3b4e3b3b3b3b3b4d534e3b3033323b6e4d3b41444e55544f5220522052455454454c204c4c414d53204e4954414c20474e494e49424d4f433b33454431,
0x3b3b3b3b3b4e3b3b3b3b3b4d534e3b3033323b6e4d3b532052455454454c204c4c414d53204e4954414c20474e494e49424d4f433b34454431,
0x3b3b3b3b3b4e3b3b3b3b3b4d534e3b3033323b6e4d3b5320474e4f4c2052455454454c204c4c414d53204e4954414c20474e494e49424d4f433b35454431,
0x3b3b3b3b3b4e3b3b3b3b3b4d534e3b3033323b6e4d3b5a2052455454454c204c4c414d53204e4954414c20474e494e49424d4f433b36454431,
0x3b3b3b3b3b4e3b3b3b3b3b4d534e3b3033323b6e4d3b4148504c412052455454454c204c4c414d53204e4954414c20474e494e49424d4f433b37454431,
0x3b3b3b3b3b4e3b3b3b3b3b4d534e3b3033323b6e4d3b422052455454454c204c4c414d53204e4954414c20474e494e49424d4f433b38454431,
0x3b3b3b3b3b4e3b3b3b3b3b4d534e3b3033323b6e4d3b415445422052455454454c204c4c414d53204e4954414c20474e494e49424d4f433b39454431,
0x3b3b3b3b3b4e3b3b3b3b3b4d534e3b3033323b6e4d3b41574843532052455454454c204c4c414d53204e4954414c20474e494e49424d4f433b41454431,
0x3b3b3b3b3b4e3b3b3b3b3b4d534e3b3033323b6e4d3b462052455454454c204c4c414d53204e4954414c20474e494e49424d4f433b42454431,
0x3b3b3b3b3b4e3b3b3b3b3b4d534e3b3033323b6e4d3b45444c495420454c4444494d20454c42554f442048544957204c2052455454454c204c4c414d53204e4954414c20474e494e49424d4f433b43454431,
0x3b3b3b3b3b4e3b3b3b3b3b4d534e3b3033323b6e4d3b454b4f525453204e4f4954415a494c4152544e454320544847494c2048544957204f2052455454454c204c4c414d53204e4954414c20474e494e49424d4f433b44454431,
0x3b3b3b3b3b4e3b3b3b3b3b4d534e3b3033323b6e4d3b502052455454454c204c4c414d53204e4954414c20474e494e49424d4f433b45454431]

/-- src/u5e/props/UnicodeData.txt lines 6657-6912. -/
def rawUcd26 : List Nat := [
0x3b3b3b3b3b4e3b3b3b3b3b4d534e3b3033323b6e4d3b4853452052455454454c204c4c414d53204e4954414c20474e494e49424d4f433b46454431,
0x3b3b3b3b3b4e3b3b3b3b3b4d534e3b3033323b6e4d3b454b4f525453204e4f4954415a494c4152544e454320544847494c204854495720552052455454454c204c4c414d53204e4954414c20474e494e49424d4f433b30464431,
0x3b3b3b3b3b4e3b3b3b3b3b4d534e3b3033323b6e4d3b572052455454454c204c4c414d53204e4954414c20474e494e49424d4f433b31464431,
0x3b3b3b3b3b4e3b3b3b3b3b4d534e3b3033323b6e4d3b534953455245414944204854495720412052455454454c204c4c414d53204e4954414c20474e494e49424d4f433b32464431,
0x3b3b3b3b3b4e3b3b3b3b3b4d534e3b3033323b6e4d3b5349534552454149442048544957204f2052455454454c204c4c414d53204e4954414c20474e494e49424d4f433b33464431,
0x3b3b3b3b3b4e3b3b3b3b3b4d534e3b3033323b6e4d3b534953455245414944204854495720552052455454454c204c4c414d53204e4954414c20474e494e49424d4f433b34464431,
0x3b3b3b3b3b4e3b3b3b3b3b4d534e3b3033323b6e4d3b45564f4241204b43415420505520474e494e49424d4f433b35464431,
0x3b3b3b3b3b4e3b3b3b3b3b4d534e3b3033323b6e4d3b4b52414d204e4f4954454c454420474e494e49424d4f433b42464431,
0x3b3b3b3b3b4e3b3b3b3b3b4d534e3b3333323b6e4d3b574f4c4542204556455242204445545245564e4920454c42554f4420474e494e49424d4f433b43464431,
0x3b3b3b3b3b4e3b3b3b3b3b4d534e3b3032323b6e4d3b574f4c4542204f54204c415551452054534f4d4c4120474e494e49424d4f433b44464431,
0x3b3b3b3b3b4e3b3b3b3b3b4d534e3b3033323b6e4d3b45564f42412044414548574f525241205446454c20474e494e49424d4f433b45464431,
0x3b3b3b3b3b4e3b3b3b3b3b4d534e3b3032323b6e4d3b574f4c45422044414548574f525241204e574f4420444e412044414548574f52524120544847495220474e494e49424d4f433b46464431,
0x3b313045313b3b3b3b4e3b3b3b3b3532333020313430303b4c3b303b754c3b574f4c454220474e4952204854495720412052455454454c204c415449504143204e4954414c3b30304531,
0x303045313b3b303045313b3b3b4e3b3b3b3b3532333020313630303b4c3b303b6c4c3b574f4c454220474e4952204854495720412052455454454c204c4c414d53204e4954414c3b31304531,
0x3b333045313b3b3b3b4e3b3b3b3b3730333020323430303b4c3b303b754c3b45564f424120544f44204854495720422052455454454c204c415449504143204e4954414c3b32304531,
0x323045313b3b323045313b3b3b4e3b3b3b3b3730333020323630303b4c3b303b6c4c3b45564f424120544f44204854495720422052455454454c204c4c414d53204e4954414c3b33304531,
0x3b353045313b3b3b3b4e3b3b3b3b3332333020323430303b4c3b303b754c3b574f4c454220544f44204854495720422052455454454c204c415449504143204e4954414c3b34304531,
0x343045313b3b343045313b3b3b4e3b3b3b3b3332333020323630303b4c3b303b6c4c3b574f4c454220544f44204854495720422052455454454c204c4c414d53204e4954414c3b35304531,
0x3b373045313b3b3b3b4e3b3b3b3b3133333020323430303b4c3b303b754c3b574f4c454220454e494c204854495720422052455454454c204c415449504143204e4954414c3b36304531,
0x363045313b3b363045313b3b3b4e3b3b3b3b3133333020323630303b4c3b303b6c4c3b574f4c454220454e494c204854495720422052455454454c204c4c414d53204e4954414c3b37304531,
0x3b393045313b3b3b3b4e3b3b3b3b3130333020374330303b4c3b303b754c3b455455434120444e4120414c4c49444543204854495720432052455454454c204c415449504143204e4954414c3b38304531,
0x383045313b3b383045313b3b3b4e3b3b3b3b3130333020374530303b4c3b303b6c4c3b455455434120444e4120414c4c49444543204854495720432052455454454c204c4c414d53204e4954414c3b39304531,
0x3b423045313b3b3b3b4e3b3b3b3b3730333020343430303b4c3b303b754c3b45564f424120544f44204854495720442052455454454c204c415449504143204e4954414c3b41304531,
0x413045313b3b413045313b3b3b4e3b3b3b3b3730333020343630303b4c3b303b6c4c3b45564f424120544f44204854495720442052455454454c204c4c414d53204e4954414c3b42304531,
0x3b443045313b3b3b3b4e3b3b3b3b3332333020343430303b4c3b303b754c3b574f4c454220544f44204854495720442052455454454c204c415449504143204e4954414c3b43304531,
0x433045313b3b433045313b3b3b4e3b3b3b3b3332333020343630303b4c3b303b6c4c3b574f4c454220544f44204854495720442052455454454c204c4c414d53204e4954414c3b44304531,
0x3b463045313b3b3b3b4e3b3b3b3b3133333020343430303b4c3b303b754c3b574f4c454220454e494c204854495720442052455454454c204c415449504143204e4954414c3b45304531,
0x453045313b3b453045313b3b3b4e3b3b3b3b3133333020343630303b4c3b303b6c4c3b574f4c454220454e494c204854495720442052455454454c204c4c414d53204e4954414c3b46304531,
0x3b313145313b3b3b3b4e3b3b3b3b3732333020343430303b4c3b303b754c3b414c4c49444543204854495720442052455454454c204c415449504143204e4954414c3b30314531,
0x303145313b3b303145313b3b3b4e3b3b3b3b3732333020343630303b4c3b303b6c4c3b414c4c49444543204854495720442052455454454c204c4c414d53204e4954414c3b31314531,
0x3b333145313b3b3b3b4e3b3b3b3b4432333020343430303b4c3b303b754c3b574f4c45422058454c464d5543524943204854495720442052455454454c204c415449504143204e4954414c3b32314531,
0x323145313b3b323145313b3b3b4e3b3b3b3b4432333020343630303b4c3b303b6c4c3b574f4c45422058454c464d5543524943204854495720442052455454454c204c4c414d53204e4954414c3b33314531,
0x3b353145313b3b3b3b4e3b3b3b3b3030333020323131303b4c3b303b754c3b455641524720444e41204e4f5243414d204854495720452052455454454c204c415449504143204e4954414c3b34314531,
0x343145313b3b343145313b3b3b4e3b3b3b3b3030333020333131303b4c3b303b6c4c3b455641524720444e41204e4f5243414d204854495720452052455454454c204c4c414d53204e4954414c3b35314531,
0x3b373145313b3b3b3b4e3b3b3b3b3130333020323131303b4c3b303b754c3b455455434120444e41204e4f5243414d204854495720452052455454454c204c415449504143204e4954414c3b36314531,
0x363145313b3b363145313b3b3b4e3b3b3b3b3130333020333131303b4c3b303b6c4c3b455455434120444e41204e4f5243414d204854495720452052455454454c204c4c414d53204e4954414c3b37314531,
0x3b393145313b3b3b3b4e3b3b3b3b4432333020353430303b4c3b303b754c3b574f4c45422058454c464d5543524943204854495720452052455454454c204c415449504143204e4954414c3b38314531,
0x383145313b3b383145313b3b3b4e3b3b3b3b4432333020353630303b4c3b303b6c4c3b574f4c45422058454c464d5543524943204854495720452052455454454c204c4c414d53204e4954414c3b39314531,
0x3b423145313b3b3b3b4e3b3b3b3b3033333020353430303b4c3b303b754c3b574f4c45422045444c4954204854495720452052455454454c204c415449504143204e4954414c3b41314531,
0x413145313b3b413145313b3b3b4e3b3b3b3b3033333020353630303b4c3b303b6c4c3b574f4c45422045444c4954204854495720452052455454454c204c4c414d53204e4954414c3b42314531,
0x3b443145313b3b3b3b4e3b3b3b3b3630333020383232303b4c3b303b754c3b455645524220444e4120414c4c49444543204854495720452052455454454c204c415449504143204e4954414c3b43314531,
0x433145313b3b433145313b3b3b4e3b3b3b3b3630333020393232303b4c3b303b6c4c3b455645524220444e4120414c4c49444543204854495720452052455454454c204c4c414d53204e4954414c3b44314531,
0x3b463145313b3b3b3b4e3b3b3b3b3730333020363430303b4c3b303b754c3b45564f424120544f44204854495720462052455454454c204c415449504143204e4954414c3b45314531,
0x453145313b3b453145313b3b3b4e3b3b3b3b3730333020363630303b4c3b303b6c4c3b45564f424120544f44204854495720462052455454454c204c4c414d53204e4954414c3b46314531,
0x3b313245313b3b3b3b4e3b3b3b3b3430333020373430303b4c3b303b754c3b4e4f5243414d204854495720472052455454454c204c415449504143204e4954414c3b30324531,
0x303245313b3b303245313b3b3b4e3b3b3b3b3430333020373630303b4c3b303b6c4c3b4e4f5243414d204854495720472052455454454c204c4c414d53204e4954414c3b31324531,
0x3b333245313b3b3b3b4e3b3b3b3b3730333020383430303b4c3b303b754c3b45564f424120544f44204854495720482052455454454c204c415449504143204e4954414c3b32324531,
0x323245313b3b323245313b3b3b4e3b3b3b3b3730333020383630303b4c3b303b6c4c3b45564f424120544f44204854495720482052455454454c204c4c414d53204e4954414c3b33324531,
0x3b353245313b3b3b3b4e3b3b3b3b3332333020383430303b4c3b303b754c3b574f4c454220544f44204854495720482052455454454c204c415449504143204e4954414c3b34324531,
0x343245313b3b343245313b3b3b4e3b3b3b3b3332333020383630303b4c3b303b6c4c3b574f4c454220544f44204854495720482052455454454c204c4c414d53204e4954414c3b35324531,
0x3b373245313b3b3b3b4e3b3b3b3b3830333020383430303b4c3b303b754c3b534953455245414944204854495720482052455454454c204c415449504143204e4954414c3b36324531,
0x363245313b3b363245313b3b3b4e3b3b3b3b3830333020383630303b4c3b303b6c4c3b534953455245414944204854495720482052455454454c204c4c414d53204e4954414c3b37324531,
0x3b393245313b3b3b3b4e3b3b3b3b3732333020383430303b4c3b303b754c3b414c4c49444543204854495720482052455454454c204c415449504143204e4954414c3b38324531,
0x383245313b3b383245313b3b3b4e3b3b3b3b3732333020383630303b4c3b303b6c4c3b414c4c49444543204854495720482052455454454c204c4c414d53204e4954414c3b39324531,
0x3b423245313b3b3b3b4e3b3b3b3b4532333020383430303b4c3b303b754c3b574f4c4542204556455242204854495720482052455454454c204c415449504143204e4954414c3b41324531,
0x413245313b3b413245313b3b3b4e3b3b3b3b4532333020383630303b4c3b303b6c4c3b574f4c4542204556455242204854495720482052455454454c204c4c414d53204e4954414c3b42324531,
0x3b443245313b3b3b3b4e3b3b3b3b3033333020393430303b4c3b303b754c3b574f4c45422045444c4954204854495720492052455454454c204c415449504143204e4954414c3b43324531,
0x433245313b3b433245313b3b3b4e3b3b3b3b3033333020393630303b4c3b303b6c4c3b574f4c45422045444c4954204854495720492052455454454c204c4c414d53204e4954414c3b44324531,
0x3b463245313b3b3b3b4e3b3b3b3b3130333020464330303b4c3b303b754c3b455455434120444e4120534953455245414944204854495720492052455454454c204c415449504143204e4954414c3b45324531,
0x453245313b3b453245313b3b3b4e3b3b3b3b3130333020464530303b4c3b303b6c4c3b455455434120444e4120534953455245414944204854495720492052455454454c204c4c414d53204e4954414c3b46324531,
0x3b313345313b3b3b3b4e3b3b3b3b3130333020423430303b4c3b303b754c3b45545543412048544957204b2052455454454c204c415449504143204e4954414c3b30334531,
0x303345313b3b303345313b3b3b4e3b3b3b3b3130333020423630303b4c3b303b6c4c3b45545543412048544957204b2052455454454c204c4c414d53204e4954414c3b31334531,
0x3b333345313b3b3b3b4e3b3b3b3b3332333020423430303b4c3b303b754c3b574f4c454220544f442048544957204b2052455454454c204c415449504143204e4954414c3b32334531,
0x323345313b3b323345313b3b3b4e3b3b3b3b3332333020423630303b4c3b303b6c4c3b574f4c454220544f442048544957204b2052455454454c204c4c414d53204e4954414c3b33334531,
0x3b353345313b3b3b3b4e3b3b3b3b3133333020423430303b4c3b303b754c3b574f4c454220454e494c2048544957204b2052455454454c204c415449504143204e4954414c3b34334531,
0x343345313b3b343345313b3b3b4e3b3b3b3b3133333020423630303b4c3b303b6c4c3b574f4c454220454e494c2048544957204b2052455454454c204c4c414d53204e4954414c3b35334531,
0x3b373345313b3b3b3b4e3b3b3b3b3332333020433430303b4c3b303b754c3b574f4c454220544f442048544957204c2052455454454c204c415449504143204e4954414c3b36334531,
0x363345313b3b363345313b3b3b4e3b3b3b3b3332333020433630303b4c3b303b6c4c3b574f4c454220544f442048544957204c2052455454454c204c4c414d53204e4954414c3b37334531,
0x3b393345313b3b3b3b4e3b3b3b3b3430333020363345313b4c3b303b754c3b4e4f5243414d20444e4120574f4c454220544f442048544957204c2052455454454c204c415449504143204e4954414c3b38334531,
0x383345313b3b383345313b3b3b4e3b3b3b3b3430333020373345313b4c3b303b6c4c3b4e4f5243414d20444e4120574f4c454220544f442048544957204c2052455454454c204c4c414d53204e4954414c3b39334531,
0x3b423345313b3b3b3b4e3b3b3b3b3133333020433430303b4c3b303b754c3b574f4c454220454e494c2048544957204c2052455454454c204c415449504143204e4954414c3b41334531,
0x413345313b3b413345313b3b3b4e3b3b3b3b3133333020433630303b4c3b303b6c4c3b574f4c454220454e494c2048544957204c2052455454454c204c4c414d53204e4954414c3b42334531,
0x3b443345313b3b3b3b4e3b3b3b3b4432333020433430303b4c3b303b754c3b574f4c45422058454c464d55435249432048544957204c2052455454454c204c415449504143204e4954414c3b43334531,
0x433345313b3b433345313b3b3b4e3b3b3b3b4432333020433630303b4c3b303b6c4c3b574f4c45422058454c464d55435249432048544957204c2052455454454c204c4c414d53204e4954414c3b44334531,
0x3b463345313b3b3b3b4e3b3b3b3b3130333020443430303b4c3b303b754c3b45545543412048544957204d2052455454454c204c415449504143204e4954414c3b45334531,
0x453345313b3b453345313b3b3b4e3b3b3b3b3130333020443630303b4c3b303b6c4c3b45545543412048544957204d2052455454454c204c4c414d53204e4954414c3b46334531,
0x3b313445313b3b3b3b4e3b3b3b3b3730333020443430303b4c3b303b754c3b45564f424120544f442048544957204d2052455454454c204c415449504143204e4954414c3b30344531,
0x303445313b3b303445313b3b3b4e3b3b3b3b3730333020443630303b4c3b303b6c4c3b45564f424120544f442048544957204d2052455454454c204c4c414d53204e4954414c3b31344531,
0x3b333445313b3b3b3b4e3b3b3b3b3332333020443430303b4c3b303b754c3b574f4c454220544f442048544957204d2052455454454c204c415449504143204e4954414c3b32344531,
0x323445313b3b323445313b3b3b4e3b3b3b3b3332333020443630303b4c3b303b6c4c3b574f4c454220544f442048544957204d2052455454454c204c4c414d53204e4954414c3b33344531,
0x3b353445313b3b3b3b4e3b3b3b3b3730333020453430303b4c3b303b754c3b45564f424120544f442048544957204e2052455454454c204c415449504143204e4954414c3b34344531,
0x343445313b3b343445313b3b3b4e3b3b3b3b3730333020453630303b4c3b303b6c4c3b45564f424120544f442048544957204e2052455454454c204c4c414d53204e4954414c3b35344531,
0x3b373445313b3b3b3b4e3b3b3b3b3332333020453430303b4c3b303b754c3b574f4c454220544f442048544957204e2052455454454c204c415449504143204e4954414c3b36344531,
0x363445313b3b363445313b3b3b4e3b3b3b3b3332333020453630303b4c3b303b6c4c3b574f4c454220544f442048544957204e2052455454454c204c4c414d53204e4954414c3b37344531,
0x3b393445313b3b3b3b4e3b3b3b3b3133333020453430303b4c3b303b754c3b574f4c454220454e494c2048544957204e2052455454454c204c415449504143204e4954414c3b38344531,
0x383445313b3b383445313b3b3b4e3b3b3b3b3133333020453630303b4c3b303b6c4c3b574f4c454220454e494c2048544957204e2052455454454c204c4c414d53204e4954414c3b39344531,
0x3b423445313b3b3b3b4e3b3b3b3b4432333020453430303b4c3b303b754c3b574f4c45422058454c464d55435249432048544957204e2052455454454c204c415449504143204e4954414c3b41344531,
0x413445313b3b413445313b3b3b4e3b3b3b3b4432333020453630303b4c3b303b6c4c3b574f4c45422058454c464d55435249432048544957204e2052455454454c204c4c414d53204e4954414c3b42344531,
0x3b443445313b3b3b3b4e3b3b3b3b3130333020354430303b4c3b303b754c3b455455434120444e412045444c49542048544957204f2052455454454c204c415449504143204e4954414c3b43344531,
0x433445313b3b433445313b3b3b4e3b3b3b3b3130333020354630303b4c3b303b6c4c3b455455434120444e412045444c49542048544957204f2052455454454c204c4c414d53204e4954414c3b44344531,
0x3b463445313b3b3b3b4e3b3b3b3b3830333020354430303b4c3b303b754c3b53495345524541494420444e412045444c49542048544957204f2052455454454c204c415449504143204e4954414c3b45344531,
0x453445313b3b453445313b3b3b4e3b3b3b3b3830333020354630303b4c3b303b6c4c3b53495345524541494420444e412045444c49542048544957204f2052455454454c204c4c414d53204e4954414c3b46344531,
0x3b313545313b3b3b3b4e3b3b3b3b3030333020433431303b4c3b303b754c3b455641524720444e41204e4f5243414d2048544957204f2052455454454c204c415449504143204e4954414c3b30354531,
0x303545313b3b303545313b3b3b4e3b3b3b3b3030333020443431303b4c3b303b6c4c3b455641524720444e41204e4f5243414d2048544957204f2052455454454c204c4c414d53204e4954414c3b31354531,
0x3b333545313b3b3b3b4e3b3b3b3b3130333020433431303b4c3b303b754c3b455455434120444e41204e4f5243414d2048544957204f2052455454454c204c415449504143204e4954414c3b32354531,
0x323545313b3b323545313b3b3b4e3b3b3b3b3130333020443431303b4c3b303b6c4c3b455455434120444e41204e4f5243414d2048544957204f2052455454454c204c4c414d53204e4954414c3b33354531,
0x3b353545313b3b3b3b4e3b3b3b3b3130333020303530303b4c3b303b754c3b4554554341204854495720502052455454454c204c415449504143204e4954414c3b34354531,
0x343545313b3b343545313b3b3b4e3b3b3b3b3130333020303730303b4c3b303b6c4c3b4554554341204854495720502052455454454c204c4c414d53204e4954414c3b35354531,
0x3b373545313b3b3b3b4e3b3b3b3b3730333020303530303b4c3b303b754c3b45564f424120544f44204854495720502052455454454c204c415449504143204e4954414c3b36354531,
0x363545313b3b363545313b3b3b4e3b3b3b3b3730333020303730303b4c3b303b6c4c3b45564f424120544f44204854495720502052455454454c204c4c414d53204e4954414c3b37354531,
0x3b393545313b3b3b3b4e3b3b3b3b3730333020323530303b4c3b303b754c3b45564f424120544f44204854495720522052455454454c204c415449504143204e4954414c3b38354531,
0x383545313b3b383545313b3b3b4e3b3b3b3b3730333020323730303b4c3b303b6c4c3b45564f424120544f44204854495720522052455454454c204c4c414d53204e4954414c3b39354531,
0x3b423545313b3b3b3b4e3b3b3b3b3332333020323530303b4c3b303b754c3b574f4c454220544f44204854495720522052455454454c204c415449504143204e4954414c3b41354531,
0x413545313b3b413545313b3b3b4e3b3b3b3b3332333020323730303b4c3b303b6c4c3b574f4c454220544f44204854495720522052455454454c204c4c414d53204e4954414c3b42354531,
0x3b443545313b3b3b3b4e3b3b3b3b3430333020413545313b4c3b303b754c3b4e4f5243414d20444e4120574f4c454220544f44204854495720522052455454454c204c415449504143204e4954414c3b43354531,
0x433545313b3b433545313b3b3b4e3b3b3b3b3430333020423545313b4c3b303b6c4c3b4e4f5243414d20444e4120574f4c454220544f44204854495720522052455454454c204c4c414d53204e4954414c3b44354531,
0x3b463545313b3b3b3b4e3b3b3b3b3133333020323530303b4c3b303b754c3b574f4c454220454e494c204854495720522052455454454c204c415449504143204e4954414c3b45354531,
0x453545313b3b453545313b3b3b4e3b3b3b3b3133333020323730303b4c3b303b6c4c3b574f4c454220454e494c204854495720522052455454454c204c4c414d53204e4954414c3b46354531,
0x3b313645313b3b3b3b4e3b3b3b3b3730333020333530303b4c3b303b754c3b45564f424120544f44204854495720532052455454454c204c415449504143204e4954414c3b30364531,
0x303645313b3b303645313b3b3b4e3b3b3b3b3730333020333730303b4c3b303b6c4c3b45564f424120544f44204854495720532052455454454c204c4c414d53204e4954414c3b31364531,
0x3b333645313b3b3b3b4e3b3b3b3b3332333020333530303b4c3b303b754c3b574f4c454220544f44204854495720532052455454454c204c415449504143204e4954414c3b32364531,
0x323645313b3b323645313b3b3b4e3b3b3b3b3332333020333730303b4c3b303b6c4c3b574f4c454220544f44204854495720532052455454454c204c4c414d53204e4954414c3b33364531,
0x3b353645313b3b3b3b4e3b3b3b3b3730333020413531303b4c3b303b754c3b45564f424120544f4420444e41204554554341204854495720532052455454454c204c415449504143204e4954414c3b34364531,
0x343645313b3b343645313b3b3b4e3b3b3b3b3730333020423531303b4c3b303b6c4c3b45564f424120544f4420444e41204554554341204854495720532052455454454c204c4c414d53204e4954414c3b35364531,
0x3b373645313b3b3b3b4e3b3b3b3b3730333020303631303b4c3b303b754c3b45564f424120544f4420444e41204e4f524143204854495720532052455454454c204c415449504143204e4954414c3b36364531,
0x363645313b3b363645313b3b3b4e3b3b3b3b3730333020313631303b4c3b303b6c4c3b45564f424120544f4420444e41204e4f524143204854495720532052455454454c204c4c414d53204e4954414c3b37364531,
0x3b393645313b3b3b3b4e3b3b3b3b3730333020323645313b4c3b303b754c3b45564f424120544f4420444e4120574f4c454220544f44204854495720532052455454454c204c415449504143204e4954414c3b38364531,
0x383645313b3b383645313b3b3b4e3b3b3b3b3730333020333645313b4c3b303b6c4c3b45564f424120544f4420444e4120574f4c454220544f44204854495720532052455454454c204c4c414d53204e4954414c3b39364531,
0x3b423645313b3b3b3b4e3b3b3b3b3730333020343530303b4c3b303b754c3b45564f424120544f44204854495720542052455454454c204c415449504143204e4954414c3b41364531,
0x413645313b3b413645313b3b3b4e3b3b3b3b3730333020343730303b4c3b303b6c4c3b45564f424120544f44204854495720542052455454454c204c4c414d53204e4954414c3b42364531,
0x3b443645313b3b3b3b4e3b3b3b3b3332333020343530303b4c3b303b754c3b574f4c454220544f44204854495720542052455454454c204c415449504143204e4954414c3b43364531,
0x433645313b3b433645313b3b3b4e3b3b3b3b3332333020343730303b4c3b303b6c4c3b574f4c454220544f44204854495720542052455454454c204c4c414d53204e4954414c3b44364531,
0x3b463645313b3b3b3b4e3b3b3b3b3133333020343530303b4c3b303b754c3b574f4c454220454e494c204854495720542052455454454c204c415449504143204e4954414c3b45364531,
0x453645313b3b453645313b3b3b4e3b3b3b3b3133333020343730303b4c3b303b6c4c3b574f4c454220454e494c204854495720542052455454454c204c4c414d53204e4954414c3b46364531,
0x3b313745313b3b3b3b4e3b3b3b3b4432333020343530303b4c3b303b754c3b574f4c45422058454c464d5543524943204854495720542052455454454c204c415449504143204e4954414c3b30374531,
0x303745313b3b303745313b3b3b4e3b3b3b3b4432333020343730303b4c3b303b6c4c3b574f4c45422058454c464d5543524943204854495720542052455454454c204c4c414d53204e4954414c3b31374531,
0x3b333745313b3b3b3b4e3b3b3b3b3432333020353530303b4c3b303b754c3b574f4c454220534953455245414944204854495720552052455454454c204c415449504143204e4954414c3b32374531,
0x323745313b3b323745313b3b3b4e3b3b3b3b3432333020353730303b4c3b303b6c4c3b574f4c454220534953455245414944204854495720552052455454454c204c4c414d53204e4954414c3b33374531,
0x3b353745313b3b3b3b4e3b3b3b3b3033333020353530303b4c3b303b754c3b574f4c45422045444c4954204854495720552052455454454c204c415449504143204e4954414c3b34374531,
0x343745313b3b343745313b3b3b4e3b3b3b3b3033333020353730303b4c3b303b6c4c3b574f4c45422045444c4954204854495720552052455454454c204c4c414d53204e4954414c3b35374531,
0x3b373745313b3b3b3b4e3b3b3b3b4432333020353530303b4c3b303b754c3b574f4c45422058454c464d5543524943204854495720552052455454454c204c415449504143204e4954414c3b36374531,
0x363745313b3b363745313b3b3b4e3b3b3b3b4432333020353730303b4c3b303b6c4c3b574f4c45422058454c464d5543524943204854495720552052455454454c204c4c414d53204e4954414c3b37374531,
0x3b393745313b3b3b3b4e3b3b3b3b3130333020383631303b4c3b303b754c3b455455434120444e412045444c4954204854495720552052455454454c204c415449504143204e4954414c3b38374531,
0x383745313b3b383745313b3b3b4e3b3b3b3b3130333020393631303b4c3b303b6c4c3b455455434120444e412045444c4954204854495720552052455454454c204c4c414d53204e4954414c3b39374531,
0x3b423745313b3b3b3b4e3b3b3b3b3830333020413631303b4c3b303b754c3b53495345524541494420444e41204e4f5243414d204854495720552052455454454c204c415449504143204e4954414c3b41374531,
0x413745313b3b413745313b3b3b4e3b3b3b3b3830333020423631303b4c3b303b6c4c3b53495345524541494420444e41204e4f5243414d204854495720552052455454454c204c4c414d53204e4954414c3b42374531,
0x3b443745313b3b3b3b4e3b3b3b3b3330333020363530303b4c3b303b754c3b45444c4954204854495720562052455454454c204c415449504143204e4954414c3b43374531,
0x433745313b3b433745313b3b3b4e3b3b3b3b3330333020363730303b4c3b303b6c4c3b45444c4954204854495720562052455454454c204c4c414d53204e4954414c3b44374531,
0x3b463745313b3b3b3b4e3b3b3b3b3332333020363530303b4c3b303b754c3b574f4c454220544f44204854495720562052455454454c204c415449504143204e4954414c3b45374531,
0x453745313b3b453745313b3b3b4e3b3b3b3b3332333020363730303b4c3b303b6c4c3b574f4c454220544f44204854495720562052455454454c204c4c414d53204e4954414c3b46374531,
0x3b313845313b3b3b3b4e3b3b3b3b3030333020373530303b4c3b303b754c3b4556415247204854495720572052455454454c204c415449504143204e4954414c3b30384531,
0x303845313b3b303845313b3b3b4e3b3b3b3b3030333020373730303b4c3b303b6c4c3b4556415247204854495720572052455454454c204c4c414d53204e4954414c3b31384531,
0x3b333845313b3b3b3b4e3b3b3b3b3130333020373530303b4c3b303b754c3b4554554341204854495720572052455454454c204c415449504143204e4954414c3b32384531,
0x323845313b3b323845313b3b3b4e3b3b3b3b3130333020373730303b4c3b303b6c4c3b4554554341204854495720572052455454454c204c4c414d53204e4954414c3b33384531,
0x3b353845313b3b3b3b4e3b3b3b3b3830333020373530303b4c3b303b754c3b534953455245414944204854495720572052455454454c204c415449504143204e4954414c3b34384531,
0x343845313b3b343845313b3b3b4e3b3b3b3b3830333020373730303b4c3b303b6c4c3b534953455245414944204854495720572052455454454c204c4c414d53204e4954414c3b35384531,
0x3b373845313b3b3b3b4e3b3b3b3b3730333020373530303b4c3b303b754c3b45564f424120544f44204854495720572052455454454c204c415449504143204e4954414c3b36384531,
0x363845313b3b363845313b3b3b4e3b3b3b3b3730333020373730303b4c3b303b6c4c3b45564f424120544f44204854495720572052455454454c204c4c414d53204e4954414c3b37384531,
0x3b393845313b3b3b3b4e3b3b3b3b3332333020373530303b4c3b303b754c3b574f4c454220544f44204854495720572052455454454c204c415449504143204e4954414c3b38384531,
0x383845313b3b383845313b3b3b4e3b3b3b3b3332333020373730303b4c3b303b6c4c3b574f4c454220544f44204854495720572052455454454c204c4c414d53204e4954414c3b39384531,
0x3b423845313b3b3b3b4e3b3b3b3b3730333020383530303b4c3b303b754c3b45564f424120544f44204854495720582052455454454c204c415449504143204e4954414c3b41384531,
0x413845313b3b413845313b3b3b4e3b3b3b3b3730333020383730303b4c3b303b6c4c3b45564f424120544f44204854495720582052455454454c204c4c414d53204e4954414c3b42384531,
0x3b443845313b3b3b3b4e3b3b3b3b3830333020383530303b4c3b303b754c3b534953455245414944204854495720582052455454454c204c415449504143204e4954414c3b43384531,
0x433845313b3b433845313b3b3b4e3b3b3b3b3830333020383730303b4c3b303b6c4c3b534953455245414944204854495720582052455454454c204c4c414d53204e4954414c3b44384531,
0x3b463845313b3b3b3b4e3b3b3b3b3730333020393530303b4c3b303b754c3b45564f424120544f44204854495720592052455454454c204c415449504143204e4954414c3b45384531,
0x453845313b3b453845313b3b3b4e3b3b3b3b3730333020393730303b4c3b303b6c4c3b45564f424120544f44204854495720592052455454454c204c4c414d53204e4954414c3b46384531,
0x3b313945313b3b3b3b4e3b3b3b3b3230333020413530303b4c3b303b754c3b58454c464d55435249432048544957205a2052455454454c204c415449504143204e4954414c3b30394531,
0x303945313b3b303945313b3b3b4e3b3b3b3b3230333020413730303b4c3b303b6c4c3b58454c464d55435249432048544957205a2052455454454c204c4c414d53204e4954414c3b31394531,
0x3b333945313b3b3b3b4e3b3b3b3b3332333020413530303b4c3b303b754c3b574f4c454220544f442048544957205a2052455454454c204c415449504143204e4954414c3b32394531,
0x323945313b3b323945313b3b3b4e3b3b3b3b3332333020413730303b4c3b303b6c4c3b574f4c454220544f442048544957205a2052455454454c204c4c414d53204e4954414c3b33394531,
0x3b353945313b3b3b3b4e3b3b3b3b3133333020413530303b4c3b303b754c3b574f4c454220454e494c2048544957205a2052455454454c204c415449504143204e4954414c3b34394531,
0x343945313b3b343945313b3b3b4e3b3b3b3b3133333020413730303b4c3b303b6c4c3b574f4c454220454e494c2048544957205a2052455454454c204c4c414d53204e4954414c3b35394531,
0x3b3b3b3b3b4e3b3b3b3b3133333020383630303b4c3b303b6c4c3b574f4c454220454e494c204854495720482052455454454c204c4c414d53204e4954414c3b36394531,
0x3b3b3b3b3b4e3b3b3b3b3830333020343730303b4c3b303b6c4c3b534953455245414944204854495720542052455454454c204c4c414d53204e4954414c3b37394531,
0x3b3b3b3b3b4e3b3b3b3b4130333020373730303b4c3b303b6c4c3b45564f424120474e4952204854495720572052455454454c204c4c414d53204e4954414c3b38394531,
0x3b3b3b3b3b4e3b3b3b3b4130333020393730303b4c3b303b6c4c3b45564f424120474e4952204854495720592052455454454c204c4c414d53204e4954414c3b39394531,
0x3b3b3b3b3b4e3b3b3b3b454232302031363030203e7461706d6f633c3b4c3b303b6c4c3b474e495220464c4148205448474952204854495720412052455454454c204c4c414d53204e4954414c3b41394531,
0x303645313b3b303645313b3b3b4e3b3b3b3b3730333020463731303b4c3b303b6c4c3b45564f424120544f442048544957205320474e4f4c2052455454454c204c4c414d53204e4954414c3b42394531,
0x3b3b3b3b3b4e3b3b3b3b3b4c3b303b6c4c3b454b4f525453204c414e4f474149442048544957205320474e4f4c2052455454454c204c4c414d53204e4954414c3b43394531,
0x3b3b3b3b3b4e3b3b3b3b3b4c3b303b6c4c3b454b4f52545320484749482048544957205320474e4f4c2052455454454c204c4c414d53204e4954414c3b44394531,
0x3b464430303b3b3b3b4e3b3b3b3b3b4c3b303b754c3b532050524148532052455454454c204c415449504143204e4954414c3b45394531,
0x3b3b3b3b3b4e3b3b3b3b3b4c3b303b6c4c3b41544c45442052455454454c204c4c414d53204e4954414c3b46394531,
0x3b314145313b3b3b3b4e3b3b3b3b3332333020313430303b4c3b303b754c3b574f4c454220544f44204854495720412052455454454c204c415449504143204e4954414c3b30414531,
0x304145313b3b304145313b3b3b4e3b3b3b3b3332333020313630303b4c3b303b6c4c3b574f4c454220544f44204854495720412052455454454c204c4c414d53204e4954414c3b31414531,
0x3b334145313b3b3b3b4e3b3b3b3b3930333020313430303b4c3b303b754c3b45564f4241204b4f4f48204854495720412052455454454c204c415449504143204e4954414c3b32414531,
0x324145313b3b324145313b3b3b4e3b3b3b3b3930333020313630303b4c3b303b6c4c3b45564f4241204b4f4f48204854495720412052455454454c204c4c414d53204e4954414c3b33414531,
0x3b354145313b3b3b3b4e3b3b3b3b3130333020324330303b4c3b303b754c3b455455434120444e412058454c464d5543524943204854495720412052455454454c204c415449504143204e4954414c3b34414531,
0x344145313b3b344145313b3b3b4e3b3b3b3b3130333020324530303b4c3b303b6c4c3b455455434120444e412058454c464d5543524943204854495720412052455454454c204c4c414d53204e4954414c3b35414531,
0x3b374145313b3b3b3b4e3b3b3b3b3030333020324330303b4c3b303b754c3b455641524720444e412058454c464d5543524943204854495720412052455454454c204c415449504143204e4954414c3b36414531,
0x364145313b3b364145313b3b3b4e3b3b3b3b3030333020324530303b4c3b303b6c4c3b455641524720444e412058454c464d5543524943204854495720412052455454454c204c4c414d53204e4954414c3b37414531,
0x3b394145313b3b3b3b4e3b3b3b3b3930333020324330303b4c3b303b754c3b45564f4241204b4f4f4820444e412058454c464d5543524943204854495720412052455454454c204c415449504143204e4954414c3b38414531,
0x384145313b3b384145313b3b3b4e3b3b3b3b3930333020324530303b4c3b303b6c4c3b45564f4241204b4f4f4820444e412058454c464d5543524943204854495720412052455454454c204c4c414d53204e4954414c3b39414531,
0x3b424145313b3b3b3b4e3b3b3b3b3330333020324330303b4c3b303b754c3b45444c495420444e412058454c464d5543524943204854495720412052455454454c204c415449504143204e4954414c3b41414531,
0x414145313b3b414145313b3b3b4e3b3b3b3b3330333020324530303b4c3b303b6c4c3b45444c495420444e412058454c464d5543524943204854495720412052455454454c204c4c414d53204e4954414c3b42414531,
0x3b444145313b3b3b3b4e3b3b3b3b3230333020304145313b4c3b303b754c3b574f4c454220544f4420444e412058454c464d5543524943204854495720412052455454454c204c415449504143204e4954414c3b43414531,
0x434145313b3b434145313b3b3b4e3b3b3b3b3230333020314145313b4c3b303b6c4c3b574f4c454220544f4420444e412058454c464d5543524943204854495720412052455454454c204c4c414d53204e4954414c3b44414531,
0x3b464145313b3b3b3b4e3b3b3b3b3130333020323031303b4c3b303b754c3b455455434120444e41204556455242204854495720412052455454454c204c415449504143204e4954414c3b45414531,
0x454145313b3b454145313b3b3b4e3b3b3b3b3130333020333031303b4c3b303b6c4c3b455455434120444e41204556455242204854495720412052455454454c204c4c414d53204e4954414c3b46414531,
0x3b314245313b3b3b3b4e3b3b3b3b3030333020323031303b4c3b303b754c3b455641524720444e41204556455242204854495720412052455454454c204c415449504143204e4954414c3b30424531,
0x304245313b3b304245313b3b3b4e3b3b3b3b3030333020333031303b4c3b303b6c4c3b455641524720444e41204556455242204854495720412052455454454c204c4c414d53204e4954414c3b31424531,
0x3b334245313b3b3b3b4e3b3b3b3b3930333020323031303b4c3b303b754c3b45564f4241204b4f4f4820444e41204556455242204854495720412052455454454c204c415449504143204e4954414c3b32424531,
0x324245313b3b324245313b3b3b4e3b3b3b3b3930333020333031303b4c3b303b6c4c3b45564f4241204b4f4f4820444e41204556455242204854495720412052455454454c204c4c414d53204e4954414c3b33424531,
0x3b354245313b3b3b3b4e3b3b3b3b3330333020323031303b4c3b303b754c3b45444c495420444e41204556455242204854495720412052455454454c204c415449504143204e4954414c3b34424531,
0x344245313b3b344245313b3b3b4e3b3b3b3b3330333020333031303b4c3b303b6c4c3b45444c495420444e41204556455242204854495720412052455454454c204c4c414d53204e4954414c3b35424531,
0x3b374245313b3b3b3b4e3b3b3b3b3630333020304145313b4c3b303b754c3b574f4c454220544f4420444e41204556455242204854495720412052455454454c204c415449504143204e4954414c3b36424531,
0x364245313b3b364245313b3b3b4e3b3b3b3b3630333020314145313b4c3b303b6c4c3b574f4c454220544f4420444e41204556455242204854495720412052455454454c204c4c414d53204e4954414c3b37424531,
0x3b394245313b3b3b3b4e3b3b3b3b3332333020353430303b4c3b303b754c3b574f4c454220544f44204854495720452052455454454c204c415449504143204e4954414c3b38424531,
0x384245313b3b384245313b3b3b4e3b3b3b3b3332333020353630303b4c3b303b6c4c3b574f4c454220544f44204854495720452052455454454c204c4c414d53204e4954414c3b39424531,
0x3b424245313b3b3b3b4e3b3b3b3b3930333020353430303b4c3b303b754c3b45564f4241204b4f4f48204854495720452052455454454c204c415449504143204e4954414c3b41424531,
0x414245313b3b414245313b3b3b4e3b3b3b3b3930333020353630303b4c3b303b6c4c3b45564f4241204b4f4f48204854495720452052455454454c204c4c414d53204e4954414c3b42424531,
0x3b444245313b3b3b3b4e3b3b3b3b3330333020353430303b4c3b303b754c3b45444c4954204854495720452052455454454c204c415449504143204e4954414c3b43424531,
0x434245313b3b434245313b3b3b4e3b3b3b3b3330333020353630303b4c3b303b6c4c3b45444c4954204854495720452052455454454c204c4c414d53204e4954414c3b44424531,
0x3b464245313b3b3b3b4e3b3b3b3b3130333020414330303b4c3b303b754c3b455455434120444e412058454c464d5543524943204854495720452052455454454c204c415449504143204e4954414c3b45424531,
0x454245313b3b454245313b3b3b4e3b3b3b3b3130333020414530303b4c3b303b6c4c3b455455434120444e412058454c464d5543524943204854495720452052455454454c204c4c414d53204e4954414c3b46424531,
0x3b314345313b3b3b3b4e3b3b3b3b3030333020414330303b4c3b303b754c3b455641524720444e412058454c464d5543524943204854495720452052455454454c204c415449504143204e4954414c3b30434531,
0x304345313b3b304345313b3b3b4e3b3b3b3b3030333020414530303b4c3b303b6c4c3b455641524720444e412058454c464d5543524943204854495720452052455454454c204c4c414d53204e4954414c3b31434531,
0x3b334345313b3b3b3b4e3b3b3b3b3930333020414330303b4c3b303b754c3b45564f4241204b4f4f4820444e412058454c464d5543524943204854495720452052455454454c204c415449504143204e4954414c3b32434531,
0x324345313b3b324345313b3b3b4e3b3b3b3b3930333020414530303b4c3b303b6c4c3b45564f4241204b4f4f4820444e412058454c464d5543524943204854495720452052455454454c204c4c414d53204e4954414c3b33434531,
0x3b354345313b3b3b3b4e3b3b3b3b3330333020414330303b4c3b303b754c3b45444c495420444e412058454c464d5543524943204854495720452052455454454c204c415449504143204e4954414c3b34434531,
0x344345313b3b344345313b3b3b4e3b3b3b3b3330333020414530303b4c3b303b6c4c3b45444c495420444e412058454c464d5543524943204854495720452052455454454c204c4c414d53204e4954414c3b35434531,
0x3b374345313b3b3b3b4e3b3b3b3b3230333020384245313b4c3b303b754c3b574f4c454220544f4420444e412058454c464d5543524943204854495720452052455454454c204c415449504143204e4954414c3b36434531,
0x364345313b3b364345313b3b3b4e3b3b3b3b3230333020394245313b4c3b303b6c4c3b574f4c454220544f4420444e412058454c464d5543524943204854495720452052455454454c204c4c414d53204e4954414c3b37434531,
0x3b394345313b3b3b3b4e3b3b3b3b3930333020393430303b4c3b303b754c3b45564f4241204b4f4f48204854495720492052455454454c204c415449504143204e4954414c3b38434531,
0x384345313b3b384345313b3b3b4e3b3b3b3b3930333020393630303b4c3b303b6c4c3b45564f4241204b4f4f48204854495720492052455454454c204c4c414d53204e4954414c3b39434531,
0x3b424345313b3b3b3b4e3b3b3b3b3332333020393430303b4c3b303b754c3b574f4c454220544f44204854495720492052455454454c204c415449504143204e4954414c3b41434531,
0x414345313b3b414345313b3b3b4e3b3b3b3b3332333020393630303b4c3b303b6c4c3b574f4c454220544f44204854495720492052455454454c204c4c414d53204e4954414c3b42434531,
0x3b444345313b3b3b3b4e3b3b3b3b3332333020463430303b4c3b303b754c3b574f4c454220544f442048544957204f2052455454454c204c415449504143204e4954414c3b43434531,
0x434345313b3b434345313b3b3b4e3b3b3b3b3332333020463630303b4c3b303b6c4c3b574f4c454220544f442048544957204f2052455454454c204c4c414d53204e4954414c3b44434531,
0x3b464345313b3b3b3b4e3b3b3b3b3930333020463430303b4c3b303b754c3b45564f4241204b4f4f482048544957204f2052455454454c204c415449504143204e4954414c3b45434531,
0x454345313b3b454345313b3b3b4e3b3b3b3b3930333020463630303b4c3b303b6c4c3b45564f4241204b4f4f482048544957204f2052455454454c204c4c414d53204e4954414c3b46434531,
0x3b314445313b3b3b3b4e3b3b3b3b3130333020344430303b4c3b303b754c3b455455434120444e412058454c464d55435249432048544957204f2052455454454c204c415449504143204e4954414c3b30444531,
0x304445313b3b304445313b3b3b4e3b3b3b3b3130333020344630303b4c3b303b6c4c3b455455434120444e412058454c464d55435249432048544957204f2052455454454c204c4c414d53204e4954414c3b31444531,
0x3b334445313b3b3b3b4e3b3b3b3b3030333020344430303b4c3b303b754c3b455641524720444e412058454c464d55435249432048544957204f2052455454454c204c415449504143204e4954414c3b32444531,
0x324445313b3b324445313b3b3b4e3b3b3b3b3030333020344630303b4c3b303b6c4c3b455641524720444e412058454c464d55435249432048544957204f2052455454454c204c4c414d53204e4954414c3b33444531,
0x3b354445313b3b3b3b4e3b3b3b3b3930333020344430303b4c3b303b754c3b45564f4241204b4f4f4820444e412058454c464d55435249432048544957204f2052455454454c204c415449504143204e4954414c3b34444531,
0x344445313b3b344445313b3b3b4e3b3b3b3b3930333020344630303b4c3b303b6c4c3b45564f4241204b4f4f4820444e412058454c464d55435249432048544957204f2052455454454c204c4c414d53204e4954414c3b35444531,
0x3b374445313b3b3b3b4e3b3b3b3b3330333020344430303b4c3b303b754c3b45444c495420444e412058454c464d55435249432048544957204f2052455454454c204c415449504143204e4954414c3b36444531,
0x364445313b3b364445313b3b3b4e3b3b3b3b3330333020344630303b4c3b303b6c4c3b45444c495420444e412058454c464d55435249432048544957204f2052455454454c204c4c414d53204e4954414c3b37444531,
0x3b394445313b3b3b3b4e3b3b3b3b3230333020434345313b4c3b303b754c3b574f4c454220544f4420444e412058454c464d55435249432048544957204f2052455454454c204c415449504143204e4954414c3b38444531,
0x384445313b3b384445313b3b3b4e3b3b3b3b3230333020444345313b4c3b303b6c4c3b574f4c454220544f4420444e412058454c464d55435249432048544957204f2052455454454c204c4c414d53204e4954414c3b39444531,
0x3b424445313b3b3b3b4e3b3b3b3b3130333020304131303b4c3b303b754c3b455455434120444e41204e524f482048544957204f2052455454454c204c415449504143204e4954414c3b41444531,
0x414445313b3b414445313b3b3b4e3b3b3b3b3130333020314131303b4c3b303b6c4c3b455455434120444e41204e524f482048544957204f2052455454454c204c4c414d53204e4954414c3b42444531,
0x3b444445313b3b3b3b4e3b3b3b3b3030333020304131303b4c3b303b754c3b455641524720444e41204e524f482048544957204f2052455454454c204c415449504143204e4954414c3b43444531,
0x434445313b3b434445313b3b3b4e3b3b3b3b3030333020314131303b4c3b303b6c4c3b455641524720444e41204e524f482048544957204f2052455454454c204c4c414d53204e4954414c3b44444531,
0x3b464445313b3b3b3b4e3b3b3b3b3930333020304131303b4c3b303b754c3b45564f4241204b4f4f4820444e41204e524f482048544957204f2052455454454c204c415449504143204e4954414c3b45444531,
0x454445313b3b454445313b3b3b4e3b3b3b3b3930333020314131303b4c3b303b6c4c3b45564f4241204b4f4f4820444e41204e524f482048544957204f2052455454454c204c4c414d53204e4954414c3b46444531,
0x3b314545313b3b3b3b4e3b3b3b3b3330333020304131303b4c3b303b754c3b45444c495420444e41204e524f482048544957204f2052455454454c204c415449504143204e4954414c3b30454531,
0x304545313b3b304545313b3b3b4e3b3b3b3b3330333020314131303b4c3b303b6c4c3b45444c495420444e41204e524f482048544957204f2052455454454c204c4c414d53204e4954414c3b31454531,
0x3b334545313b3b3b3b4e3b3b3b3b3332333020304131303b4c3b303b754c3b574f4c454220544f4420444e41204e524f482048544957204f2052455454454c204c415449504143204e4954414c3b32454531,
0x324545313b3b324545313b3b3b4e3b3b3b3b3332333020314131303b4c3b303b6c4c3b574f4c454220544f4420444e41204e524f482048544957204f2052455454454c204c4c414d53204e4954414c3b33454531,
0x3b354545313b3b3b3b4e3b3b3b3b3332333020353530303b4c3b303b754c3b574f4c454220544f44204854495720552052455454454c204c415449504143204e4954414c3b34454531,
0x344545313b3b344545313b3b3b4e3b3b3b3b3332333020353730303b4c3b303b6c4c3b574f4c454220544f44204854495720552052455454454c204c4c414d53204e4954414c3b35454531,
0x3b374545313b3b3b3b4e3b3b3b3b3930333020353530303b4c3b303b754c3b45564f4241204b4f4f48204854495720552052455454454c204c415449504143204e4954414c3b36454531,
0x364545313b3b364545313b3b3b4e3b3b3b3b3930333020353730303b4c3b303b6c4c3b45564f4241204b4f4f48204854495720552052455454454c204c4c414d53204e4954414c3b37454531,
0x3b394545313b3b3b3b4e3b3b3b3b3130333020464131303b4c3b303b754c3b455455434120444e41204e524f48204854495720552052455454454c204c415449504143204e4954414c3b38454531,
0x384545313b3b384545313b3b3b4e3b3b3b3b3130333020304231303b4c3b303b6c4c3b455455434120444e41204e524f48204854495720552052455454454c204c4c414d53204e4954414c3b39454531,
0x3b424545313b3b3b3b4e3b3b3b3b3030333020464131303b4c3b303b754c3b455641524720444e41204e524f48204854495720552052455454454c204c415449504143204e4954414c3b41454531,
0x414545313b3b414545313b3b3b4e3b3b3b3b3030333020304231303b4c3b303b6c4c3b455641524720444e41204e524f48204854495720552052455454454c204c4c414d53204e4954414c3b42454531,
0x3b444545313b3b3b3b4e3b3b3b3b3930333020464131303b4c3b303b754c3b45564f4241204b4f4f4820444e41204e524f48204854495720552052455454454c204c415449504143204e4954414c3b43454531,
0x434545313b3b434545313b3b3b4e3b3b3b3b3930333020304231303b4c3b303b6c4c3b45564f4241204b4f4f4820444e41204e524f48204854495720552052455454454c204c4c414d53204e4954414c3b44454531,
0x3b464545313b3b3b3b4e3b3b3b3b3330333020464131303b4c3b303b754c3b45444c495420444e41204e524f48204854495720552052455454454c204c415449504143204e4954414c3b45454531,
0x454545313b3b454545313b3b3b4e3b3b3b3b3330333020304231303b4c3b303b6c4c3b45444c495420444e41204e524f48204854495720552052455454454c204c4c414d53204e4954414c3b46454531,
0x3b314645313b3b3b3b4e3b3b3b3b3332333020464131303b4c3b303b754c3b574f4c454220544f4420444e41204e524f48204854495720552052455454454c204c415449504143204e4954414c3b30464531,
0x304645313b3b304645313b3b3b4e3b3b3b3b3332333020304231303b4c3b303b6c4c3b574f4c454220544f4420444e41204e524f48204854495720552052455454454c204c4c414d53204e4954414c3b31464531,
0x3b334645313b3b3b3b4e3b3b3b3b3030333020393530303b4c3b303b754c3b4556415247204854495720592052455454454c204c415449504143204e4954414c3b32464531,
0x324645313b3b324645313b3b3b4e3b3b3b3b3030333020393730303b4c3b303b6c4c3b4556415247204854495720592052455454454c204c4c414d53204e4954414c3b33464531]

/-- src/u5e/props/UnicodeData.txt lines 6913-7168. -/
def rawUcd27 : List Nat := [
0x3b354645313b3b3b3b4e3b3b3b3b3332333020393530303b4c3b303b754c3b574f4c454220544f44204854495720592052455454454c204c415449504143204e4954414c3b34464531,
0x344645313b3b344645313b3b3b4e3b3b3b3b3332333020393730303b4c3b303b6c4c3b574f4c454220544f44204854495720592052455454454c204c4c414d53204e4954414c3b35464531,
0x3b374645313b3b3b3b4e3b3b3b3b3930333020393530303b4c3b303b754c3b45564f4241204b4f4f48204854495720592052455454454c204c415449504143204e4954414c3b36464531,
0x364645313b3b364645313b3b3b4e3b3b3b3b3930333020393730303b4c3b303b6c4c3b45564f4241204b4f4f48204854495720592052455454454c204c4c414d53204e4954414c3b37464531,
0x3b394645313b3b3b3b4e3b3b3b3b3330333020393530303b4c3b303b754c3b45444c4954204854495720592052455454454c204c415449504143204e4954414c3b38464531,
0x384645313b3b384645313b3b3b4e3b3b3b3b3330333020393730303b4c3b303b6c4c3b45444c4954204854495720592052455454454c204c4c414d53204e4954414c3b39464531,
0x3b424645313b3b3b3b4e3b3b3b3b3b4c3b303b754c3b4c4c2048534c45572d454c4444494d2052455454454c204c415449504143204e4954414c3b41464531,
0x414645313b3b414645313b3b3b4e3b3b3b3b3b4c3b303b6c4c3b4c4c2048534c45572d454c4444494d2052455454454c204c4c414d53204e4954414c3b42464531,
0x3b444645313b3b3b3b4e3b3b3b3b3b4c3b303b754c3b562048534c45572d454c4444494d2052455454454c204c415449504143204e4954414c3b43464531,
0x434645313b3b434645313b3b3b4e3b3b3b3b3b4c3b303b6c4c3b562048534c45572d454c4444494d2052455454454c204c4c414d53204e4954414c3b44464531,
0x3b464645313b3b3b3b4e3b3b3b3b3b4c3b303b754c3b504f4f4c204854495720592052455454454c204c415449504143204e4954414c3b45464531,
0x454645313b3b454645313b3b3b4e3b3b3b3b3b4c3b303b6c4c3b504f4f4c204854495720592052455454454c204c4c414d53204e4954414c3b46464531,
0x383046313b3b383046313b3b3b4e3b3b3b3b3331333020314233303b4c3b303b6c4c3b494c4953502048544957204148504c412052455454454c204c4c414d53204b454552473b30304631,
0x393046313b3b393046313b3b3b4e3b3b3b3b3431333020314233303b4c3b303b6c4c3b41495341442048544957204148504c412052455454454c204c4c414d53204b454552473b31304631,
0x413046313b3b413046313b3b3b4e3b3b3b3b3030333020303046313b4c3b303b6c4c3b414952415620444e4120494c4953502048544957204148504c412052455454454c204c4c414d53204b454552473b32304631,
0x423046313b3b423046313b3b3b4e3b3b3b3b3030333020313046313b4c3b303b6c4c3b414952415620444e412041495341442048544957204148504c412052455454454c204c4c414d53204b454552473b33304631,
0x433046313b3b433046313b3b3b4e3b3b3b3b3130333020303046313b4c3b303b6c4c3b4149584f20444e4120494c4953502048544957204148504c412052455454454c204c4c414d53204b454552473b34304631,
0x443046313b3b443046313b3b3b4e3b3b3b3b3130333020313046313b4c3b303b6c4c3b4149584f20444e412041495341442048544957204148504c412052455454454c204c4c414d53204b454552473b35304631,
0x453046313b3b453046313b3b3b4e3b3b3b3b3234333020303046313b4c3b303b6c4c3b494e454d4f50534952455020444e4120494c4953502048544957204148504c412052455454454c204c4c414d53204b454552473b36304631,
0x463046313b3b463046313b3b3b4e3b3b3b3b3234333020313046313b4c3b303b6c4c3b494e454d4f50534952455020444e412041495341442048544957204148504c412052455454454c204c4c414d53204b454552473b37304631,
0x3b303046313b3b3b3b4e3b3b3b3b3331333020313933303b4c3b303b754c3b494c4953502048544957204148504c412052455454454c204c415449504143204b454552473b38304631,
0x3b313046313b3b3b3b4e3b3b3b3b3431333020313933303b4c3b303b754c3b41495341442048544957204148504c412052455454454c204c415449504143204b454552473b39304631,
0x3b323046313b3b3b3b4e3b3b3b3b3030333020383046313b4c3b303b754c3b414952415620444e4120494c4953502048544957204148504c412052455454454c204c415449504143204b454552473b41304631,
0x3b333046313b3b3b3b4e3b3b3b3b3030333020393046313b4c3b303b754c3b414952415620444e412041495341442048544957204148504c412052455454454c204c415449504143204b454552473b42304631,
0x3b343046313b3b3b3b4e3b3b3b3b3130333020383046313b4c3b303b754c3b4149584f20444e4120494c4953502048544957204148504c412052455454454c204c415449504143204b454552473b43304631,
0x3b353046313b3b3b3b4e3b3b3b3b3130333020393046313b4c3b303b754c3b4149584f20444e412041495341442048544957204148504c412052455454454c204c415449504143204b454552473b44304631,
0x3b363046313b3b3b3b4e3b3b3b3b3234333020383046313b4c3b303b754c3b494e454d4f50534952455020444e4120494c4953502048544957204148504c412052455454454c204c415449504143204b454552473b45304631,
0x3b373046313b3b3b3b4e3b3b3b3b3234333020393046313b4c3b303b754c3b494e454d4f50534952455020444e412041495341442048544957204148504c412052455454454c204c415449504143204b454552473b46304631,
0x383146313b3b383146313b3b3b4e3b3b3b3b3331333020354233303b4c3b303b6c4c3b494c4953502048544957204e4f4c495350452052455454454c204c4c414d53204b454552473b30314631,
0x393146313b3b393146313b3b3b4e3b3b3b3b3431333020354233303b4c3b303b6c4c3b41495341442048544957204e4f4c495350452052455454454c204c4c414d53204b454552473b31314631,
0x413146313b3b413146313b3b3b4e3b3b3b3b3030333020303146313b4c3b303b6c4c3b414952415620444e4120494c4953502048544957204e4f4c495350452052455454454c204c4c414d53204b454552473b32314631,
0x423146313b3b423146313b3b3b4e3b3b3b3b3030333020313146313b4c3b303b6c4c3b414952415620444e412041495341442048544957204e4f4c495350452052455454454c204c4c414d53204b454552473b33314631,
0x433146313b3b433146313b3b3b4e3b3b3b3b3130333020303146313b4c3b303b6c4c3b4149584f20444e4120494c4953502048544957204e4f4c495350452052455454454c204c4c414d53204b454552473b34314631,
0x443146313b3b443146313b3b3b4e3b3b3b3b3130333020313146313b4c3b303b6c4c3b4149584f20444e412041495341442048544957204e4f4c495350452052455454454c204c4c414d53204b454552473b35314631,
0x3b303146313b3b3b3b4e3b3b3b3b3331333020353933303b4c3b303b754c3b494c4953502048544957204e4f4c495350452052455454454c204c415449504143204b454552473b38314631,
0x3b313146313b3b3b3b4e3b3b3b3b3431333020353933303b4c3b303b754c3b41495341442048544957204e4f4c495350452052455454454c204c415449504143204b454552473b39314631,
0x3b323146313b3b3b3b4e3b3b3b3b3030333020383146313b4c3b303b754c3b414952415620444e4120494c4953502048544957204e4f4c495350452052455454454c204c415449504143204b454552473b41314631,
0x3b333146313b3b3b3b4e3b3b3b3b3030333020393146313b4c3b303b754c3b414952415620444e412041495341442048544957204e4f4c495350452052455454454c204c415449504143204b454552473b42314631,
0x3b343146313b3b3b3b4e3b3b3b3b3130333020383146313b4c3b303b754c3b4149584f20444e4120494c4953502048544957204e4f4c495350452052455454454c204c415449504143204b454552473b43314631,
0x3b353146313b3b3b3b4e3b3b3b3b3130333020393146313b4c3b303b754c3b4149584f20444e412041495341442048544957204e4f4c495350452052455454454c204c415449504143204b454552473b44314631,
0x383246313b3b383246313b3b3b4e3b3b3b3b3331333020374233303b4c3b303b6c4c3b494c4953502048544957204154452052455454454c204c4c414d53204b454552473b30324631,
0x393246313b3b393246313b3b3b4e3b3b3b3b3431333020374233303b4c3b303b6c4c3b41495341442048544957204154452052455454454c204c4c414d53204b454552473b31324631,
0x413246313b3b413246313b3b3b4e3b3b3b3b3030333020303246313b4c3b303b6c4c3b414952415620444e4120494c4953502048544957204154452052455454454c204c4c414d53204b454552473b32324631,
0x423246313b3b423246313b3b3b4e3b3b3b3b3030333020313246313b4c3b303b6c4c3b414952415620444e412041495341442048544957204154452052455454454c204c4c414d53204b454552473b33324631,
0x433246313b3b433246313b3b3b4e3b3b3b3b3130333020303246313b4c3b303b6c4c3b4149584f20444e4120494c4953502048544957204154452052455454454c204c4c414d53204b454552473b34324631,
0x443246313b3b443246313b3b3b4e3b3b3b3b3130333020313246313b4c3b303b6c4c3b4149584f20444e412041495341442048544957204154452052455454454c204c4c414d53204b454552473b35324631,
0x453246313b3b453246313b3b3b4e3b3b3b3b3234333020303246313b4c3b303b6c4c3b494e454d4f50534952455020444e4120494c4953502048544957204154452052455454454c204c4c414d53204b454552473b36324631,
0x463246313b3b463246313b3b3b4e3b3b3b3b3234333020313246313b4c3b303b6c4c3b494e454d4f50534952455020444e412041495341442048544957204154452052455454454c204c4c414d53204b454552473b37324631,
0x3b303246313b3b3b3b4e3b3b3b3b3331333020373933303b4c3b303b754c3b494c4953502048544957204154452052455454454c204c415449504143204b454552473b38324631,
0x3b313246313b3b3b3b4e3b3b3b3b3431333020373933303b4c3b303b754c3b41495341442048544957204154452052455454454c204c415449504143204b454552473b39324631,
0x3b323246313b3b3b3b4e3b3b3b3b3030333020383246313b4c3b303b754c3b414952415620444e4120494c4953502048544957204154452052455454454c204c415449504143204b454552473b41324631,
0x3b333246313b3b3b3b4e3b3b3b3b3030333020393246313b4c3b303b754c3b414952415620444e412041495341442048544957204154452052455454454c204c415449504143204b454552473b42324631,
0x3b343246313b3b3b3b4e3b3b3b3b3130333020383246313b4c3b303b754c3b4149584f20444e4120494c4953502048544957204154452052455454454c204c415449504143204b454552473b43324631,
0x3b353246313b3b3b3b4e3b3b3b3b3130333020393246313b4c3b303b754c3b4149584f20444e412041495341442048544957204154452052455454454c204c415449504143204b454552473b44324631,
0x3b363246313b3b3b3b4e3b3b3b3b3234333020383246313b4c3b303b754c3b494e454d4f50534952455020444e4120494c4953502048544957204154452052455454454c204c415449504143204b454552473b45324631,
0x3b373246313b3b3b3b4e3b3b3b3b3234333020393246313b4c3b303b754c3b494e454d4f50534952455020444e412041495341442048544957204154452052455454454c204c415449504143204b454552473b46324631,
0x383346313b3b383346313b3b3b4e3b3b3b3b3331333020394233303b4c3b303b6c4c3b494c49535020485449572041544f492052455454454c204c4c414d53204b454552473b30334631,
0x393346313b3b393346313b3b3b4e3b3b3b3b3431333020394233303b4c3b303b6c4c3b414953414420485449572041544f492052455454454c204c4c414d53204b454552473b31334631,
0x413346313b3b413346313b3b3b4e3b3b3b3b3030333020303346313b4c3b303b6c4c3b414952415620444e4120494c49535020485449572041544f492052455454454c204c4c414d53204b454552473b32334631,
0x423346313b3b423346313b3b3b4e3b3b3b3b3030333020313346313b4c3b303b6c4c3b414952415620444e4120414953414420485449572041544f492052455454454c204c4c414d53204b454552473b33334631,
0x433346313b3b433346313b3b3b4e3b3b3b3b3130333020303346313b4c3b303b6c4c3b4149584f20444e4120494c49535020485449572041544f492052455454454c204c4c414d53204b454552473b34334631,
0x443346313b3b443346313b3b3b4e3b3b3b3b3130333020313346313b4c3b303b6c4c3b4149584f20444e4120414953414420485449572041544f492052455454454c204c4c414d53204b454552473b35334631,
0x453346313b3b453346313b3b3b4e3b3b3b3b3234333020303346313b4c3b303b6c4c3b494e454d4f50534952455020444e4120494c49535020485449572041544f492052455454454c204c4c414d53204b454552473b36334631,
0x463346313b3b463346313b3b3b4e3b3b3b3b3234333020313346313b4c3b303b6c4c3b494e454d4f50534952455020444e4120414953414420485449572041544f492052455454454c204c4c414d53204b454552473b37334631,
0x3b303346313b3b3b3b4e3b3b3b3b3331333020393933303b4c3b303b754c3b494c49535020485449572041544f492052455454454c204c415449504143204b454552473b38334631,
0x3b313346313b3b3b3b4e3b3b3b3b3431333020393933303b4c3b303b754c3b414953414420485449572041544f492052455454454c204c415449504143204b454552473b39334631,
0x3b323346313b3b3b3b4e3b3b3b3b3030333020383346313b4c3b303b754c3b414952415620444e4120494c49535020485449572041544f492052455454454c204c415449504143204b454552473b41334631,
0x3b333346313b3b3b3b4e3b3b3b3b3030333020393346313b4c3b303b754c3b414952415620444e4120414953414420485449572041544f492052455454454c204c415449504143204b454552473b42334631,
0x3b343346313b3b3b3b4e3b3b3b3b3130333020383346313b4c3b303b754c3b4149584f20444e4120494c49535020485449572041544f492052455454454c204c415449504143204b454552473b43334631,
0x3b353346313b3b3b3b4e3b3b3b3b3130333020393346313b4c3b303b754c3b4149584f20444e4120414953414420485449572041544f492052455454454c204c415449504143204b454552473b44334631,
0x3b363346313b3b3b3b4e3b3b3b3b3234333020383346313b4c3b303b754c3b494e454d4f50534952455020444e4120494c49535020485449572041544f492052455454454c204c415449504143204b454552473b45334631,
0x3b373346313b3b3b3b4e3b3b3b3b3234333020393346313b4c3b303b754c3b494e454d4f50534952455020444e4120414953414420485449572041544f492052455454454c204c415449504143204b454552473b46334631,
0x383446313b3b383446313b3b3b4e3b3b3b3b3331333020464233303b4c3b303b6c4c3b494c4953502048544957204e4f5243494d4f2052455454454c204c4c414d53204b454552473b30344631,
0x393446313b3b393446313b3b3b4e3b3b3b3b3431333020464233303b4c3b303b6c4c3b41495341442048544957204e4f5243494d4f2052455454454c204c4c414d53204b454552473b31344631,
0x413446313b3b413446313b3b3b4e3b3b3b3b3030333020303446313b4c3b303b6c4c3b414952415620444e4120494c4953502048544957204e4f5243494d4f2052455454454c204c4c414d53204b454552473b32344631,
0x423446313b3b423446313b3b3b4e3b3b3b3b3030333020313446313b4c3b303b6c4c3b414952415620444e412041495341442048544957204e4f5243494d4f2052455454454c204c4c414d53204b454552473b33344631,
0x433446313b3b433446313b3b3b4e3b3b3b3b3130333020303446313b4c3b303b6c4c3b4149584f20444e4120494c4953502048544957204e4f5243494d4f2052455454454c204c4c414d53204b454552473b34344631,
0x443446313b3b443446313b3b3b4e3b3b3b3b3130333020313446313b4c3b303b6c4c3b4149584f20444e412041495341442048544957204e4f5243494d4f2052455454454c204c4c414d53204b454552473b35344631,
0x3b303446313b3b3b3b4e3b3b3b3b3331333020463933303b4c3b303b754c3b494c4953502048544957204e4f5243494d4f2052455454454c204c415449504143204b454552473b38344631,
0x3b313446313b3b3b3b4e3b3b3b3b3431333020463933303b4c3b303b754c3b41495341442048544957204e4f5243494d4f2052455454454c204c415449504143204b454552473b39344631,
0x3b323446313b3b3b3b4e3b3b3b3b3030333020383446313b4c3b303b754c3b414952415620444e4120494c4953502048544957204e4f5243494d4f2052455454454c204c415449504143204b454552473b41344631,
0x3b333446313b3b3b3b4e3b3b3b3b3030333020393446313b4c3b303b754c3b414952415620444e412041495341442048544957204e4f5243494d4f2052455454454c204c415449504143204b454552473b42344631,
0x3b343446313b3b3b3b4e3b3b3b3b3130333020383446313b4c3b303b754c3b4149584f20444e4120494c4953502048544957204e4f5243494d4f2052455454454c204c415449504143204b454552473b43344631,
0x3b353446313b3b3b3b4e3b3b3b3b3130333020393446313b4c3b303b754c3b4149584f20444e412041495341442048544957204e4f5243494d4f2052455454454c204c415449504143204b454552473b44344631,
0x3b3b3b3b3b4e3b3b3b3b3331333020354333303b4c3b303b6c4c3b494c4953502048544957204e4f4c495350552052455454454c204c4c414d53204b454552473b30354631,
0x393546313b3b393546313b3b3b4e3b3b3b3b3431333020354333303b4c3b303b6c4c3b41495341442048544957204e4f4c495350552052455454454c204c4c414d53204b454552473b31354631,
0x3b3b3b3b3b4e3b3b3b3b3030333020303546313b4c3b303b6c4c3b414952415620444e4120494c4953502048544957204e4f4c495350552052455454454c204c4c414d53204b454552473b32354631,
0x423546313b3b423546313b3b3b4e3b3b3b3b3030333020313546313b4c3b303b6c4c3b414952415620444e412041495341442048544957204e4f4c495350552052455454454c204c4c414d53204b454552473b33354631,
0x3b3b3b3b3b4e3b3b3b3b3130333020303546313b4c3b303b6c4c3b4149584f20444e4120494c4953502048544957204e4f4c495350552052455454454c204c4c414d53204b454552473b34354631,
0x443546313b3b443546313b3b3b4e3b3b3b3b3130333020313546313b4c3b303b6c4c3b4149584f20444e412041495341442048544957204e4f4c495350552052455454454c204c4c414d53204b454552473b35354631,
0x3b3b3b3b3b4e3b3b3b3b3234333020303546313b4c3b303b6c4c3b494e454d4f50534952455020444e4120494c4953502048544957204e4f4c495350552052455454454c204c4c414d53204b454552473b36354631,
0x463546313b3b463546313b3b3b4e3b3b3b3b3234333020313546313b4c3b303b6c4c3b494e454d4f50534952455020444e412041495341442048544957204e4f4c495350552052455454454c204c4c414d53204b454552473b37354631,
0x3b313546313b3b3b3b4e3b3b3b3b3431333020354133303b4c3b303b754c3b41495341442048544957204e4f4c495350552052455454454c204c415449504143204b454552473b39354631,
0x3b333546313b3b3b3b4e3b3b3b3b3030333020393546313b4c3b303b754c3b414952415620444e412041495341442048544957204e4f4c495350552052455454454c204c415449504143204b454552473b42354631,
0x3b353546313b3b3b3b4e3b3b3b3b3130333020393546313b4c3b303b754c3b4149584f20444e412041495341442048544957204e4f4c495350552052455454454c204c415449504143204b454552473b44354631,
0x3b373546313b3b3b3b4e3b3b3b3b3234333020393546313b4c3b303b754c3b494e454d4f50534952455020444e412041495341442048544957204e4f4c495350552052455454454c204c415449504143204b454552473b46354631,
0x383646313b3b383646313b3b3b4e3b3b3b3b3331333020394333303b4c3b303b6c4c3b494c4953502048544957204147454d4f2052455454454c204c4c414d53204b454552473b30364631,
0x393646313b3b393646313b3b3b4e3b3b3b3b3431333020394333303b4c3b303b6c4c3b41495341442048544957204147454d4f2052455454454c204c4c414d53204b454552473b31364631,
0x413646313b3b413646313b3b3b4e3b3b3b3b3030333020303646313b4c3b303b6c4c3b414952415620444e4120494c4953502048544957204147454d4f2052455454454c204c4c414d53204b454552473b32364631,
0x423646313b3b423646313b3b3b4e3b3b3b3b3030333020313646313b4c3b303b6c4c3b414952415620444e412041495341442048544957204147454d4f2052455454454c204c4c414d53204b454552473b33364631,
0x433646313b3b433646313b3b3b4e3b3b3b3b3130333020303646313b4c3b303b6c4c3b4149584f20444e4120494c4953502048544957204147454d4f2052455454454c204c4c414d53204b454552473b34364631,
0x443646313b3b443646313b3b3b4e3b3b3b3b3130333020313646313b4c3b303b6c4c3b4149584f20444e412041495341442048544957204147454d4f2052455454454c204c4c414d53204b454552473b35364631,
0x453646313b3b453646313b3b3b4e3b3b3b3b3234333020303646313b4c3b303b6c4c3b494e454d4f50534952455020444e4120494c4953502048544957204147454d4f2052455454454c204c4c414d53204b454552473b36364631,
0x463646313b3b463646313b3b3b4e3b3b3b3b3234333020313646313b4c3b303b6c4c3b494e454d4f50534952455020444e412041495341442048544957204147454d4f2052455454454c204c4c414d53204b454552473b37364631,
0x3b303646313b3b3b3b4e3b3b3b3b3331333020394133303b4c3b303b754c3b494c4953502048544957204147454d4f2052455454454c204c415449504143204b454552473b38364631,
0x3b313646313b3b3b3b4e3b3b3b3b3431333020394133303b4c3b303b754c3b41495341442048544957204147454d4f2052455454454c204c415449504143204b454552473b39364631,
0x3b323646313b3b3b3b4e3b3b3b3b3030333020383646313b4c3b303b754c3b414952415620444e4120494c4953502048544957204147454d4f2052455454454c204c415449504143204b454552473b41364631,
0x3b333646313b3b3b3b4e3b3b3b3b3030333020393646313b4c3b303b754c3b414952415620444e412041495341442048544957204147454d4f2052455454454c204c415449504143204b454552473b42364631,
0x3b343646313b3b3b3b4e3b3b3b3b3130333020383646313b4c3b303b754c3b4149584f20444e4120494c4953502048544957204147454d4f2052455454454c204c415449504143204b454552473b43364631,
0x3b353646313b3b3b3b4e3b3b3b3b3130333020393646313b4c3b303b754c3b4149584f20444e412041495341442048544957204147454d4f2052455454454c204c415449504143204b454552473b44364631,
0x3b363646313b3b3b3b4e3b3b3b3b3234333020383646313b4c3b303b754c3b494e454d4f50534952455020444e4120494c4953502048544957204147454d4f2052455454454c204c415449504143204b454552473b45364631,
0x3b373646313b3b3b3b4e3b3b3b3b3234333020393646313b4c3b303b754c3b494e454d4f50534952455020444e412041495341442048544957204147454d4f2052455454454c204c415449504143204b454552473b46364631,
0x414246313b3b414246313b3b3b4e3b3b3b3b3030333020314233303b4c3b303b6c4c3b41495241562048544957204148504c412052455454454c204c4c414d53204b454552473b30374631,
0x424246313b3b424246313b3b3b4e3b3b3b3b434133303b4c3b303b6c4c3b4149584f2048544957204148504c412052455454454c204c4c414d53204b454552473b31374631,
0x384346313b3b384346313b3b3b4e3b3b3b3b3030333020354233303b4c3b303b6c4c3b41495241562048544957204e4f4c495350452052455454454c204c4c414d53204b454552473b32374631,
0x394346313b3b394346313b3b3b4e3b3b3b3b444133303b4c3b303b6c4c3b4149584f2048544957204e4f4c495350452052455454454c204c4c414d53204b454552473b33374631,
0x414346313b3b414346313b3b3b4e3b3b3b3b3030333020374233303b4c3b303b6c4c3b41495241562048544957204154452052455454454c204c4c414d53204b454552473b34374631,
0x424346313b3b424346313b3b3b4e3b3b3b3b454133303b4c3b303b6c4c3b4149584f2048544957204154452052455454454c204c4c414d53204b454552473b35374631,
0x414446313b3b414446313b3b3b4e3b3b3b3b3030333020394233303b4c3b303b6c4c3b414952415620485449572041544f492052455454454c204c4c414d53204b454552473b36374631,
0x424446313b3b424446313b3b3b4e3b3b3b3b464133303b4c3b303b6c4c3b4149584f20485449572041544f492052455454454c204c4c414d53204b454552473b37374631,
0x384646313b3b384646313b3b3b4e3b3b3b3b3030333020464233303b4c3b303b6c4c3b41495241562048544957204e4f5243494d4f2052455454454c204c4c414d53204b454552473b38374631,
0x394646313b3b394646313b3b3b4e3b3b3b3b434333303b4c3b303b6c4c3b4149584f2048544957204e4f5243494d4f2052455454454c204c4c414d53204b454552473b39374631,
0x414546313b3b414546313b3b3b4e3b3b3b3b3030333020354333303b4c3b303b6c4c3b41495241562048544957204e4f4c495350552052455454454c204c4c414d53204b454552473b41374631,
0x424546313b3b424546313b3b3b4e3b3b3b3b444333303b4c3b303b6c4c3b4149584f2048544957204e4f4c495350552052455454454c204c4c414d53204b454552473b42374631,
0x414646313b3b414646313b3b3b4e3b3b3b3b3030333020394333303b4c3b303b6c4c3b41495241562048544957204147454d4f2052455454454c204c4c414d53204b454552473b43374631,
0x424646313b3b424646313b3b3b4e3b3b3b3b454333303b4c3b303b6c4c3b4149584f2048544957204147454d4f2052455454454c204c4c414d53204b454552473b44374631,
0x383846313b3b383846313b3b3b4e3b3b3b3b3534333020303046313b4c3b303b6c4c3b494e454d4d41524745474f505920444e4120494c4953502048544957204148504c412052455454454c204c4c414d53204b454552473b30384631,
0x393846313b3b393846313b3b3b4e3b3b3b3b3534333020313046313b4c3b303b6c4c3b494e454d4d41524745474f505920444e412041495341442048544957204148504c412052455454454c204c4c414d53204b454552473b31384631,
0x413846313b3b413846313b3b3b4e3b3b3b3b3534333020323046313b4c3b303b6c4c3b494e454d4d41524745474f505920444e4120414952415620444e4120494c4953502048544957204148504c412052455454454c204c4c414d53204b454552473b32384631,
0x423846313b3b423846313b3b3b4e3b3b3b3b3534333020333046313b4c3b303b6c4c3b494e454d4d41524745474f505920444e4120414952415620444e412041495341442048544957204148504c412052455454454c204c4c414d53204b454552473b33384631,
0x433846313b3b433846313b3b3b4e3b3b3b3b3534333020343046313b4c3b303b6c4c3b494e454d4d41524745474f505920444e41204149584f20444e4120494c4953502048544957204148504c412052455454454c204c4c414d53204b454552473b34384631,
0x443846313b3b443846313b3b3b4e3b3b3b3b3534333020353046313b4c3b303b6c4c3b494e454d4d41524745474f505920444e41204149584f20444e412041495341442048544957204148504c412052455454454c204c4c414d53204b454552473b35384631,
0x453846313b3b453846313b3b3b4e3b3b3b3b3534333020363046313b4c3b303b6c4c3b494e454d4d41524745474f505920444e4120494e454d4f50534952455020444e4120494c4953502048544957204148504c412052455454454c204c4c414d53204b454552473b36384631,
0x463846313b3b463846313b3b3b4e3b3b3b3b3534333020373046313b4c3b303b6c4c3b494e454d4d41524745474f505920444e4120494e454d4f50534952455020444e412041495341442048544957204148504c412052455454454c204c4c414d53204b454552473b37384631,
0x3b303846313b3b3b3b4e3b3b3b3b3534333020383046313b4c3b303b744c3b494e454d4d4152474547534f525020444e4120494c4953502048544957204148504c412052455454454c204c415449504143204b454552473b38384631,
0x3b313846313b3b3b3b4e3b3b3b3b3534333020393046313b4c3b303b744c3b494e454d4d4152474547534f525020444e412041495341442048544957204148504c412052455454454c204c415449504143204b454552473b39384631,
0x3b323846313b3b3b3b4e3b3b3b3b3534333020413046313b4c3b303b744c3b494e454d4d4152474547534f525020444e4120414952415620444e4120494c4953502048544957204148504c412052455454454c204c415449504143204b454552473b41384631,
0x3b333846313b3b3b3b4e3b3b3b3b3534333020423046313b4c3b303b744c3b494e454d4d4152474547534f525020444e4120414952415620444e412041495341442048544957204148504c412052455454454c204c415449504143204b454552473b42384631,
0x3b343846313b3b3b3b4e3b3b3b3b3534333020433046313b4c3b303b744c3b494e454d4d4152474547534f525020444e41204149584f20444e4120494c4953502048544957204148504c412052455454454c204c415449504143204b454552473b43384631,
0x3b353846313b3b3b3b4e3b3b3b3b3534333020443046313b4c3b303b744c3b494e454d4d4152474547534f525020444e41204149584f20444e412041495341442048544957204148504c412052455454454c204c415449504143204b454552473b44384631,
0x3b363846313b3b3b3b4e3b3b3b3b3534333020453046313b4c3b303b744c3b494e454d4d4152474547534f525020444e4120494e454d4f50534952455020444e4120494c4953502048544957204148504c412052455454454c204c415449504143204b454552473b45384631,
0x3b373846313b3b3b3b4e3b3b3b3b3534333020463046313b4c3b303b744c3b494e454d4d4152474547534f525020444e4120494e454d4f50534952455020444e412041495341442048544957204148504c412052455454454c204c415449504143204b454552473b46384631,
0x383946313b3b383946313b3b3b4e3b3b3b3b3534333020303246313b4c3b303b6c4c3b494e454d4d41524745474f505920444e4120494c4953502048544957204154452052455454454c204c4c414d53204b454552473b30394631,
0x393946313b3b393946313b3b3b4e3b3b3b3b3534333020313246313b4c3b303b6c4c3b494e454d4d41524745474f505920444e412041495341442048544957204154452052455454454c204c4c414d53204b454552473b31394631,
0x413946313b3b413946313b3b3b4e3b3b3b3b3534333020323246313b4c3b303b6c4c3b494e454d4d41524745474f505920444e4120414952415620444e4120494c4953502048544957204154452052455454454c204c4c414d53204b454552473b32394631,
0x423946313b3b423946313b3b3b4e3b3b3b3b3534333020333246313b4c3b303b6c4c3b494e454d4d41524745474f505920444e4120414952415620444e412041495341442048544957204154452052455454454c204c4c414d53204b454552473b33394631,
0x433946313b3b433946313b3b3b4e3b3b3b3b3534333020343246313b4c3b303b6c4c3b494e454d4d41524745474f505920444e41204149584f20444e4120494c4953502048544957204154452052455454454c204c4c414d53204b454552473b34394631,
0x443946313b3b443946313b3b3b4e3b3b3b3b3534333020353246313b4c3b303b6c4c3b494e454d4d41524745474f505920444e41204149584f20444e412041495341442048544957204154452052455454454c204c4c414d53204b454552473b35394631,
0x453946313b3b453946313b3b3b4e3b3b3b3b3534333020363246313b4c3b303b6c4c3b494e454d4d41524745474f505920444e4120494e454d4f50534952455020444e4120494c4953502048544957204154452052455454454c204c4c414d53204b454552473b36394631,
0x463946313b3b463946313b3b3b4e3b3b3b3b3534333020373246313b4c3b303b6c4c3b494e454d4d41524745474f505920444e4120494e454d4f50534952455020444e412041495341442048544957204154452052455454454c204c4c414d53204b454552473b37394631,
0x3b303946313b3b3b3b4e3b3b3b3b3534333020383246313b4c3b303b744c3b494e454d4d4152474547534f525020444e4120494c4953502048544957204154452052455454454c204c415449504143204b454552473b38394631,
0x3b313946313b3b3b3b4e3b3b3b3b3534333020393246313b4c3b303b744c3b494e454d4d4152474547534f525020444e412041495341442048544957204154452052455454454c204c415449504143204b454552473b39394631,
0x3b323946313b3b3b3b4e3b3b3b3b3534333020413246313b4c3b303b744c3b494e454d4d4152474547534f525020444e4120414952415620444e4120494c4953502048544957204154452052455454454c204c415449504143204b454552473b41394631,
0x3b333946313b3b3b3b4e3b3b3b3b3534333020423246313b4c3b303b744c3b494e454d4d4152474547534f525020444e4120414952415620444e412041495341442048544957204154452052455454454c204c415449504143204b454552473b42394631,
0x3b343946313b3b3b3b4e3b3b3b3b3534333020433246313b4c3b303b744c3b494e454d4d4152474547534f525020444e41204149584f20444e4120494c4953502048544957204154452052455454454c204c415449504143204b454552473b43394631,
0x3b353946313b3b3b3b4e3b3b3b3b3534333020443246313b4c3b303b744c3b494e454d4d4152474547534f525020444e41204149584f20444e412041495341442048544957204154452052455454454c204c415449504143204b454552473b44394631,
0x3b363946313b3b3b3b4e3b3b3b3b3534333020453246313b4c3b303b744c3b494e454d4d4152474547534f525020444e4120494e454d4f50534952455020444e4120494c4953502048544957204154452052455454454c204c415449504143204b454552473b45394631,
0x3b373946313b3b3b3b4e3b3b3b3b3534333020463246313b4c3b303b744c3b494e454d4d4152474547534f525020444e4120494e454d4f50534952455020444e412041495341442048544957204154452052455454454c204c415449504143204b454552473b46394631,
0x384146313b3b384146313b3b3b4e3b3b3b3b3534333020303646313b4c3b303b6c4c3b494e454d4d41524745474f505920444e4120494c4953502048544957204147454d4f2052455454454c204c4c414d53204b454552473b30414631,
0x394146313b3b394146313b3b3b4e3b3b3b3b3534333020313646313b4c3b303b6c4c3b494e454d4d41524745474f505920444e412041495341442048544957204147454d4f2052455454454c204c4c414d53204b454552473b31414631,
0x414146313b3b414146313b3b3b4e3b3b3b3b3534333020323646313b4c3b303b6c4c3b494e454d4d41524745474f505920444e4120414952415620444e4120494c4953502048544957204147454d4f2052455454454c204c4c414d53204b454552473b32414631,
0x424146313b3b424146313b3b3b4e3b3b3b3b3534333020333646313b4c3b303b6c4c3b494e454d4d41524745474f505920444e4120414952415620444e412041495341442048544957204147454d4f2052455454454c204c4c414d53204b454552473b33414631,
0x434146313b3b434146313b3b3b4e3b3b3b3b3534333020343646313b4c3b303b6c4c3b494e454d4d41524745474f505920444e41204149584f20444e4120494c4953502048544957204147454d4f2052455454454c204c4c414d53204b454552473b34414631,
0x444146313b3b444146313b3b3b4e3b3b3b3b3534333020353646313b4c3b303b6c4c3b494e454d4d41524745474f505920444e41204149584f20444e412041495341442048544957204147454d4f2052455454454c204c4c414d53204b454552473b35414631,
0x454146313b3b454146313b3b3b4e3b3b3b3b3534333020363646313b4c3b303b6c4c3b494e454d4d41524745474f505920444e4120494e454d4f50534952455020444e4120494c4953502048544957204147454d4f2052455454454c204c4c414d53204b454552473b36414631,
0x464146313b3b464146313b3b3b4e3b3b3b3b3534333020373646313b4c3b303b6c4c3b494e454d4d41524745474f505920444e4120494e454d4f50534952455020444e412041495341442048544957204147454d4f2052455454454c204c4c414d53204b454552473b37414631,
0x3b304146313b3b3b3b4e3b3b3b3b3534333020383646313b4c3b303b744c3b494e454d4d4152474547534f525020444e4120494c4953502048544957204147454d4f2052455454454c204c415449504143204b454552473b38414631,
0x3b314146313b3b3b3b4e3b3b3b3b3534333020393646313b4c3b303b744c3b494e454d4d4152474547534f525020444e412041495341442048544957204147454d4f2052455454454c204c415449504143204b454552473b39414631,
0x3b324146313b3b3b3b4e3b3b3b3b3534333020413646313b4c3b303b744c3b494e454d4d4152474547534f525020444e4120414952415620444e4120494c4953502048544957204147454d4f2052455454454c204c415449504143204b454552473b41414631,
0x3b334146313b3b3b3b4e3b3b3b3b3534333020423646313b4c3b303b744c3b494e454d4d4152474547534f525020444e4120414952415620444e412041495341442048544957204147454d4f2052455454454c204c415449504143204b454552473b42414631,
0x3b344146313b3b3b3b4e3b3b3b3b3534333020433646313b4c3b303b744c3b494e454d4d4152474547534f525020444e41204149584f20444e4120494c4953502048544957204147454d4f2052455454454c204c415449504143204b454552473b43414631,
0x3b354146313b3b3b3b4e3b3b3b3b3534333020443646313b4c3b303b744c3b494e454d4d4152474547534f525020444e41204149584f20444e412041495341442048544957204147454d4f2052455454454c204c415449504143204b454552473b44414631,
0x3b364146313b3b3b3b4e3b3b3b3b3534333020453646313b4c3b303b744c3b494e454d4d4152474547534f525020444e4120494e454d4f50534952455020444e4120494c4953502048544957204147454d4f2052455454454c204c415449504143204b454552473b45414631,
0x3b374146313b3b3b3b4e3b3b3b3b3534333020463646313b4c3b303b744c3b494e454d4d4152474547534f525020444e4120494e454d4f50534952455020444e412041495341442048544957204147454d4f2052455454454c204c415449504143204b454552473b46414631,
0x384246313b3b384246313b3b3b4e3b3b3b3b3630333020314233303b4c3b303b6c4c3b5948434152562048544957204148504c412052455454454c204c4c414d53204b454552473b30424631,
0x394246313b3b394246313b3b3b4e3b3b3b3b3430333020314233303b4c3b303b6c4c3b4e4f5243414d2048544957204148504c412052455454454c204c4c414d53204b454552473b31424631,
0x3b3b3b3b3b4e3b3b3b3b3534333020303746313b4c3b303b6c4c3b494e454d4d41524745474f505920444e412041495241562048544957204148504c412052455454454c204c4c414d53204b454552473b32424631,
0x434246313b3b434246313b3b3b4e3b3b3b3b3534333020314233303b4c3b303b6c4c3b494e454d4d41524745474f50592048544957204148504c412052455454454c204c4c414d53204b454552473b33424631,
0x3b3b3b3b3b4e3b3b3b3b3534333020434133303b4c3b303b6c4c3b494e454d4d41524745474f505920444e41204149584f2048544957204148504c412052455454454c204c4c414d53204b454552473b34424631,
0x3b3b3b3b3b4e3b3b3b3b3234333020314233303b4c3b303b6c4c3b494e454d4f5053495245502048544957204148504c412052455454454c204c4c414d53204b454552473b36424631,
0x3b3b3b3b3b4e3b3b3b3b3534333020364246313b4c3b303b6c4c3b494e454d4d41524745474f505920444e4120494e454d4f5053495245502048544957204148504c412052455454454c204c4c414d53204b454552473b37424631,
0x3b304246313b3b3b3b4e3b3b3b3b3630333020313933303b4c3b303b754c3b5948434152562048544957204148504c412052455454454c204c415449504143204b454552473b38424631,
0x3b314246313b3b3b3b4e3b3b3b3b3430333020313933303b4c3b303b754c3b4e4f5243414d2048544957204148504c412052455454454c204c415449504143204b454552473b39424631,
0x3b303746313b3b3b3b4e3b3b3b3b3030333020313933303b4c3b303b754c3b41495241562048544957204148504c412052455454454c204c415449504143204b454552473b41424631,
0x3b313746313b3b3b3b4e3b3b3b3b363833303b4c3b303b754c3b4149584f2048544957204148504c412052455454454c204c415449504143204b454552473b42424631,
0x3b334246313b3b3b3b4e3b3b3b3b3534333020313933303b4c3b303b744c3b494e454d4d4152474547534f52502048544957204148504c412052455454454c204c415449504143204b454552473b43424631,
0x3b3b3b3b3b4e3b3b3b3b333133302030323030203e7461706d6f633c3b4e4f3b303b6b533b53494e4f524f4b204b454552473b44424631,
0x393933303b3b393933303b3b3b4e3b3b3b3b394233303b4c3b303b6c4c3b494e454d4d4152474547534f5250204b454552473b45424631,
0x3b3b3b3b3b4e3b3b3b3b333133302030323030203e7461706d6f633c3b4e4f3b303b6b533b494c495350204b454552473b46424631,
0x3b3b3b3b3b4e3b3b3b3b323433302030323030203e7461706d6f633c3b4e4f3b303b6b533b494e454d4f505349524550204b454552473b30434631,
0x3b3b3b3b3b4e3b3b3b3b3234333020384130303b4e4f3b303b6b533b494e454d4f50534952455020444e4120414b4954594c414944204b454552473b31434631,
0x3b3b3b3b3b4e3b3b3b3b3534333020343746313b4c3b303b6c4c3b494e454d4d41524745474f505920444e412041495241562048544957204154452052455454454c204c4c414d53204b454552473b32434631,
0x434346313b3b434346313b3b3b4e3b3b3b3b3534333020374233303b4c3b303b6c4c3b494e454d4d41524745474f50592048544957204154452052455454454c204c4c414d53204b454552473b33434631,
0x3b3b3b3b3b4e3b3b3b3b3534333020454133303b4c3b303b6c4c3b494e454d4d41524745474f505920444e41204149584f2048544957204154452052455454454c204c4c414d53204b454552473b34434631,
0x3b3b3b3b3b4e3b3b3b3b3234333020374233303b4c3b303b6c4c3b494e454d4f5053495245502048544957204154452052455454454c204c4c414d53204b454552473b36434631,
0x3b3b3b3b3b4e3b3b3b3b3534333020364346313b4c3b303b6c4c3b494e454d4d41524745474f505920444e4120494e454d4f5053495245502048544957204154452052455454454c204c4c414d53204b454552473b37434631,
0x3b323746313b3b3b3b4e3b3b3b3b3030333020353933303b4c3b303b754c3b41495241562048544957204e4f4c495350452052455454454c204c415449504143204b454552473b38434631,
0x3b333746313b3b3b3b4e3b3b3b3b383833303b4c3b303b754c3b4149584f2048544957204e4f4c495350452052455454454c204c415449504143204b454552473b39434631,
0x3b343746313b3b3b3b4e3b3b3b3b3030333020373933303b4c3b303b754c3b41495241562048544957204154452052455454454c204c415449504143204b454552473b41434631,
0x3b353746313b3b3b3b4e3b3b3b3b393833303b4c3b303b754c3b4149584f2048544957204154452052455454454c204c415449504143204b454552473b42434631,
0x3b334346313b3b3b3b4e3b3b3b3b3534333020373933303b4c3b303b744c3b494e454d4d4152474547534f52502048544957204154452052455454454c204c415449504143204b454552473b43434631,
0x3b3b3b3b3b4e3b3b3b3b3030333020464246313b4e4f3b303b6b533b414952415620444e4120494c495350204b454552473b44434631,
0x3b3b3b3b3b4e3b3b3b3b3130333020464246313b4e4f3b303b6b533b4149584f20444e4120494c495350204b454552473b45434631,
0x3b3b3b3b3b4e3b3b3b3b3234333020464246313b4e4f3b303b6b533b494e454d4f50534952455020444e4120494c495350204b454552473b46434631,
0x384446313b3b384446313b3b3b4e3b3b3b3b3630333020394233303b4c3b303b6c4c3b59484341525620485449572041544f492052455454454c204c4c414d53204b454552473b30444631,
0x394446313b3b394446313b3b3b4e3b3b3b3b3430333020394233303b4c3b303b6c4c3b4e4f5243414d20485449572041544f492052455454454c204c4c414d53204b454552473b31444631,
0x3b3b3b3b3b4e3b3b3b3b3030333020414333303b4c3b303b6c4c3b414952415620444e4120414b4954594c41494420485449572041544f492052455454454c204c4c414d53204b454552473b32444631,
0x3b3b3b3b3b4e3b3b3b3b303933303b4c3b303b6c4c3b4149584f20444e4120414b4954594c41494420485449572041544f492052455454454c204c4c414d53204b454552473b33444631,
0x3b3b3b3b3b4e3b3b3b3b3234333020394233303b4c3b303b6c4c3b494e454d4f50534952455020485449572041544f492052455454454c204c4c414d53204b454552473b36444631,
0x3b3b3b3b3b4e3b3b3b3b3234333020414333303b4c3b303b6c4c3b494e454d4f50534952455020444e4120414b4954594c41494420485449572041544f492052455454454c204c4c414d53204b454552473b37444631,
0x3b304446313b3b3b3b4e3b3b3b3b3630333020393933303b4c3b303b754c3b59484341525620485449572041544f492052455454454c204c415449504143204b454552473b38444631,
0x3b314446313b3b3b3b4e3b3b3b3b3430333020393933303b4c3b303b754c3b4e4f5243414d20485449572041544f492052455454454c204c415449504143204b454552473b39444631,
0x3b363746313b3b3b3b4e3b3b3b3b3030333020393933303b4c3b303b754c3b414952415620485449572041544f492052455454454c204c415449504143204b454552473b41444631,
0x3b373746313b3b3b3b4e3b3b3b3b413833303b4c3b303b754c3b4149584f20485449572041544f492052455454454c204c415449504143204b454552473b42444631,
0x3b3b3b3b3b4e3b3b3b3b3030333020454646313b4e4f3b303b6b533b414952415620444e41204149534144204b454552473b44444631,
0x3b3b3b3b3b4e3b3b3b3b3130333020454646313b4e4f3b303b6b533b4149584f20444e41204149534144204b454552473b45444631,
0x3b3b3b3b3b4e3b3b3b3b3234333020454646313b4e4f3b303b6b533b494e454d4f50534952455020444e41204149534144204b454552473b46444631,
0x384546313b3b384546313b3b3b4e3b3b3b3b3630333020354333303b4c3b303b6c4c3b5948434152562048544957204e4f4c495350552052455454454c204c4c414d53204b454552473b30454631,
0x394546313b3b394546313b3b3b4e3b3b3b3b3430333020354333303b4c3b303b6c4c3b4e4f5243414d2048544957204e4f4c495350552052455454454c204c4c414d53204b454552473b31454631,
0x3b3b3b3b3b4e3b3b3b3b3030333020424333303b4c3b303b6c4c3b414952415620444e4120414b4954594c4149442048544957204e4f4c495350552052455454454c204c4c414d53204b454552473b32454631,
0x3b3b3b3b3b4e3b3b3b3b304233303b4c3b303b6c4c3b4149584f20444e4120414b4954594c4149442048544957204e4f4c495350552052455454454c204c4c414d53204b454552473b33454631,
0x3b3b3b3b3b4e3b3b3b3b3331333020314333303b4c3b303b6c4c3b494c4953502048544957204f48522052455454454c204c4c414d53204b454552473b34454631,
0x434546313b3b434546313b3b3b4e3b3b3b3b3431333020314333303b4c3b303b6c4c3b41495341442048544957204f48522052455454454c204c4c414d53204b454552473b35454631,
0x3b3b3b3b3b4e3b3b3b3b3234333020354333303b4c3b303b6c4c3b494e454d4f5053495245502048544957204e4f4c495350552052455454454c204c4c414d53204b454552473b36454631,
0x3b3b3b3b3b4e3b3b3b3b3234333020424333303b4c3b303b6c4c3b494e454d4f50534952455020444e4120414b4954594c4149442048544957204e4f4c495350552052455454454c204c4c414d53204b454552473b37454631,
0x3b304546313b3b3b3b4e3b3b3b3b3630333020354133303b4c3b303b754c3b5948434152562048544957204e4f4c495350552052455454454c204c415449504143204b454552473b38454631,
0x3b314546313b3b3b3b4e3b3b3b3b3430333020354133303b4c3b303b754c3b4e4f5243414d2048544957204e4f4c495350552052455454454c204c415449504143204b454552473b39454631,
0x3b413746313b3b3b3b4e3b3b3b3b3030333020354133303b4c3b303b754c3b41495241562048544957204e4f4c495350552052455454454c204c415449504143204b454552473b41454631,
0x3b423746313b3b3b3b4e3b3b3b3b453833303b4c3b303b754c3b4149584f2048544957204e4f4c495350552052455454454c204c415449504143204b454552473b42454631,
0x3b354546313b3b3b3b4e3b3b3b3b3431333020314133303b4c3b303b754c3b41495341442048544957204f48522052455454454c204c415449504143204b454552473b43454631,
0x3b3b3b3b3b4e3b3b3b3b3030333020384130303b4e4f3b303b6b533b414952415620444e4120414b4954594c414944204b454552473b44454631,
0x3b3b3b3b3b4e3b3b3b3b353833303b4e4f3b303b6b533b4149584f20444e4120414b4954594c414944204b454552473b45454631,
0x3b3b3b3b3b4e3b3b3b3b303630303b4e4f3b303b6b533b4149524156204b454552473b46454631,
0x3b3b3b3b3b4e3b3b3b3b3534333020433746313b4c3b303b6c4c3b494e454d4d41524745474f505920444e412041495241562048544957204147454d4f2052455454454c204c4c414d53204b454552473b32464631,
0x434646313b3b434646313b3b3b4e3b3b3b3b3534333020394333303b4c3b303b6c4c3b494e454d4d41524745474f50592048544957204147454d4f2052455454454c204c4c414d53204b454552473b33464631,
0x3b3b3b3b3b4e3b3b3b3b3534333020454333303b4c3b303b6c4c3b494e454d4d41524745474f505920444e41204149584f2048544957204147454d4f2052455454454c204c4c414d53204b454552473b34464631,
0x3b3b3b3b3b4e3b3b3b3b3234333020394333303b4c3b303b6c4c3b494e454d4f5053495245502048544957204147454d4f2052455454454c204c4c414d53204b454552473b36464631,
0x3b3b3b3b3b4e3b3b3b3b3534333020364646313b4c3b303b6c4c3b494e454d4d41524745474f505920444e4120494e454d4f5053495245502048544957204147454d4f2052455454454c204c4c414d53204b454552473b37464631,
0x3b383746313b3b3b3b4e3b3b3b3b3030333020463933303b4c3b303b754c3b41495241562048544957204e4f5243494d4f2052455454454c204c415449504143204b454552473b38464631,
0x3b393746313b3b3b3b4e3b3b3b3b433833303b4c3b303b754c3b4149584f2048544957204e4f5243494d4f2052455454454c204c415449504143204b454552473b39464631,
0x3b433746313b3b3b3b4e3b3b3b3b3030333020394133303b4c3b303b754c3b41495241562048544957204147454d4f2052455454454c204c415449504143204b454552473b41464631,
0x3b443746313b3b3b3b4e3b3b3b3b463833303b4c3b303b754c3b4149584f2048544957204147454d4f2052455454454c204c415449504143204b454552473b42464631,
0x3b334646313b3b3b3b4e3b3b3b3b3534333020394133303b4c3b303b744c3b494e454d4d4152474547534f52502048544957204147454d4f2052455454454c204c415449504143204b454552473b43464631,
0x3b3b3b3b3b4e3b3b3b3b344230303b4e4f3b303b6b533b4149584f204b454552473b44464631,
0x3b3b3b3b3b4e3b3b3b3b343133302030323030203e7461706d6f633c3b4e4f3b303b6b533b4149534144204b454552473b45464631,
0x3b3b3b3b3b4e3b3b3b3b323030323b53573b303b735a3b44415551204e453b30303032,
0x3b3b3b3b3b4e3b3b3b3b333030323b53573b303b735a3b44415551204d453b31303032,
0x3b3b3b3b3b4e3b3b3b3b30323030203e7461706d6f633c3b53573b303b735a3b4543415053204e453b32303032,
0x3b3b3b3b3b4e3b3b3b3b30323030203e7461706d6f633c3b53573b303b735a3b4543415053204d453b33303032,
0x3b3b3b3b3b4e3b3b3b3b30323030203e7461706d6f633c3b53573b303b735a3b4543415053204d452d5245502d45455248543b34303032,
0x3b3b3b3b3b4e3b3b3b3b30323030203e7461706d6f633c3b53573b303b735a3b4543415053204d452d5245502d52554f463b35303032,
0x3b3b3b3b3b4e3b3b3b3b30323030203e7461706d6f633c3b53573b303b735a3b4543415053204d452d5245502d5849533b36303032,
0x3b3b3b3b3b4e3b3b3b3b30323030203e6b616572426f6e3c3b53573b303b735a3b4543415053204552554749463b37303032,
0x3b3b3b3b3b4e3b3b3b3b30323030203e7461706d6f633c3b53573b303b735a3b4543415053204e4f4954415554434e55503b38303032,
0x3b3b3b3b3b4e3b3b3b3b30323030203e7461706d6f633c3b53573b303b735a3b4543415053204e4948543b39303032,
0x3b3b3b3b3b4e3b3b3b3b30323030203e7461706d6f633c3b53573b303b735a3b454341505320524941483b41303032]

/-- src/u5e/props/UnicodeData.txt lines 7169-7424. -/
def rawUcd28 : List Nat := [
0x3b3b3b3b3b4e3b3b3b3b3b4e423b303b66433b4543415053204854444957204f52455a3b42303032,
0x3b3b3b3b3b4e3b3b3b3b3b4e423b303b66433b52454e494f4a2d4e4f4e204854444957204f52455a3b43303032,
0x3b3b3b3b3b4e3b3b3b3b3b4e423b303b66433b52454e494f4a204854444957204f52455a3b44303032,
0x3b3b3b3b3b4e3b3b3b3b3b4c3b303b66433b4b52414d2054484749522d4f542d5446454c3b45303032,
0x3b3b3b3b3b4e3b3b3b3b3b523b303b66433b4b52414d205446454c2d4f542d54484749523b46303032,
0x3b3b3b3b3b4e3b3b3b3b3b4e4f3b303b64503b4e45485059483b30313032,
0x3b3b3b3b3b4e3b3b3b3b30313032203e6b616572426f6e3c3b4e4f3b303b64503b4e454850594820474e494b414552422d4e4f4e3b31313032,
0x3b3b3b3b3b4e3b3b3b3b3b4e4f3b303b64503b48534144204552554749463b32313032,
0x3b3b3b3b3b4e3b3b3b3b3b4e4f3b303b64503b48534144204e453b33313032,
0x3b3b3b3b3b4e3b3b3b3b3b4e4f3b303b64503b48534144204d453b34313032,
0x3b3b3b3b48534144204e4f495441544f55513b4e3b3b3b3b3b4e4f3b303b64503b524142204c41544e4f5a49524f483b35313032,
0x3b3b3b3b524142204c4143495452455620454c42554f443b4e3b3b3b3b3b4e4f3b303b6f503b454e494c204c4143495452455620454c42554f443b36313032,
0x3b3b3b3b45524f43535245444e5520454c42554f4420474e49434150533b4e3b3b3b3b333333302030323030203e7461706d6f633c3b4e4f3b303b6f503b454e494c20574f4c20454c42554f443b37313032,
0x3b3b3b3b4b52414d204e4f495441544f555120414d4d4f432044454e52555420454c474e49533b4e3b3b3b3b3b4e4f3b303b69503b4b52414d204e4f495441544f555120454c474e4953205446454c3b38313032,
0x3b3b3b3b4b52414d204e4f495441544f555120414d4d4f4320454c474e49533b4e3b3b3b3b3b4e4f3b303b66503b4b52414d204e4f495441544f555120454c474e49532054484749523b39313032,
0x3b3b3b3b4b52414d204e4f495441544f555120414d4d4f4320454c474e495320574f4c3b4e3b3b3b3b3b4e4f3b303b73503b4b52414d204e4f495441544f555120392d574f4c20454c474e49533b41313032,
0x3b3b3b3b4b52414d204e4f495441544f555120414d4d4f4320444553524556455220454c474e49533b4e3b3b3b3b3b4e4f3b303b69503b4b52414d204e4f495441544f555120392d44455352455645522d4847494820454c474e49533b42313032,
0x3b3b3b3b4b52414d204e4f495441544f555120414d4d4f432044454e52555420454c42554f443b4e3b3b3b3b3b4e4f3b303b69503b4b52414d204e4f495441544f555120454c42554f44205446454c3b43313032,
0x3b3b3b3b4b52414d204e4f495441544f555120414d4d4f4320454c42554f443b4e3b3b3b3b3b4e4f3b303b66503b4b52414d204e4f495441544f555120454c42554f442054484749523b44313032,
0x3b3b3b3b4b52414d204e4f495441544f555120414d4d4f4320454c42554f4420574f4c3b4e3b3b3b3b3b4e4f3b303b73503b4b52414d204e4f495441544f555120392d574f4c20454c42554f443b45313032,
0x3b3b3b3b4b52414d204e4f495441544f555120414d4d4f4320444553524556455220454c42554f443b4e3b3b3b3b3b4e4f3b303b69503b4b52414d204e4f495441544f555120392d44455352455645522d4847494820454c42554f443b46313032,
0x3b3b3b3b3b4e3b3b3b3b3b4e4f3b303b6f503b5245474741443b30323032,
0x3b3b3b3b3b4e3b3b3b3b3b4e4f3b303b6f503b52454747414420454c42554f443b31323032,
0x3b3b3b3b3b4e3b3b3b3b3b4e4f3b303b6f503b54454c4c55423b32323032,
0x3b3b3b3b3b4e3b3b3b3b3b4e4f3b303b6f503b54454c4c55422052414c55474e414952543b33323032,
0x3b3b3b3b3b4e3b3b3b3b45323030203e7461706d6f633c3b4e4f3b303b6f503b52454441454c20544f4420454e4f3b34323032,
0x3b3b3b3b3b4e3b3b3b3b453230302045323030203e7461706d6f633c3b4e4f3b303b6f503b52454441454c20544f44204f57543b35323032,
0x3b3b3b3b3b4e3b3b3b3b4532303020453230302045323030203e7461706d6f633c3b4e4f3b303b6f503b53495350494c4c45204c41544e4f5a49524f483b36323032,
0x3b3b3b3b3b4e3b3b3b3b3b4e4f3b303b6f503b544e494f50204e4f4954414e45485059483b37323032,
0x3b3b3b3b3b4e3b3b3b3b3b53573b303b6c5a3b524f5441524150455320454e494c3b38323032,
0x3b3b3b3b3b4e3b3b3b3b3b423b303b705a3b524f54415241504553204850415247415241503b39323032,
0x3b3b3b3b3b4e3b3b3b3b3b45524c3b303b66433b474e49444445424d452054484749522d4f542d5446454c3b41323032,
0x3b3b3b3b3b4e3b3b3b3b3b454c523b303b66433b474e49444445424d45205446454c2d4f542d54484749523b42323032,
0x3b3b3b3b3b4e3b3b3b3b3b4644503b303b66433b474e495454414d524f46204c414e4f4954434552494420504f503b43323032,
0x3b3b3b3b3b4e3b3b3b3b3b4f524c3b303b66433b454449525245564f2054484749522d4f542d5446454c3b44323032,
0x3b3b3b3b3b4e3b3b3b3b3b4f4c523b303b66433b454449525245564f205446454c2d4f542d54484749523b45323032,
0x3b3b3b3b3b4e3b3b3b3b30323030203e6b616572426f6e3c3b53433b303b735a3b4543415053204b414552422d4f4e20574f5252414e3b46323032,
0x3b3b3b3b3b4e3b3b3b3b3b54453b303b6f503b4e47495320454c4c494d205245503b30333032,
0x3b3b3b3b3b4e3b3b3b3b3b54453b303b6f503b4e47495320444e4153554f4854204e4554205245503b31333032,
0x3b3b3b3b3b4e3b3b3b3b3b54453b303b6f503b454d4952503b32333032,
0x3b3b3b3b3b4e3b3b3b3b323330322032333032203e7461706d6f633c3b54453b303b6f503b454d49525020454c42554f443b33333032,
0x3b3b3b3b3b4e3b3b3b3b3233303220323330322032333032203e7461706d6f633c3b54453b303b6f503b454d49525020454c504952543b34333032,
0x3b3b3b3b3b4e3b3b3b3b3b4e4f3b303b6f503b454d4952502044455352455645523b35333032,
0x3b3b3b3b3b4e3b3b3b3b353330322035333032203e7461706d6f633c3b4e4f3b303b6f503b454d49525020454c42554f442044455352455645523b36333032,
0x3b3b3b3b3b4e3b3b3b3b3533303220353330322035333032203e7461706d6f633c3b4e4f3b303b6f503b454d49525020454c504952542044455352455645523b37333032,
0x3b3b3b3b3b4e3b3b3b3b3b4e4f3b303b6f503b54455241433b38333032,
0x3b3b3b3b54454d454c4c49554720454c474e495320474e49544e494f50205446454c3b593b3b3b3b3b4e4f3b303b69503b4b52414d204e4f495441544f555120454c474e4120474e49544e494f502d5446454c20454c474e49533b39333032,
0x3b3b3b3b54454d454c4c49554720454c474e495320474e49544e494f502054484749523b593b3b3b3b3b4e4f3b303b66503b4b52414d204e4f495441544f555120454c474e4120474e49544e494f502d544847495220454c474e49533b41333032,
0x3b3b3b3b3b4e3b3b3b3b3b4e4f3b303b6f503b4b52414d2045434e4552454645523b42333032,
0x3b3b3b3b3b4e3b3b3b3b313230302031323030203e7461706d6f633c3b4e4f3b303b6f503b4b52414d204e4f4954414d414c43584520454c42554f443b43333032,
0x3b3b3b3b3b4e3b3b3b3b3b4e4f3b303b6f503b474e41424f525245544e493b44333032,
0x3b3b3b3b45524f43535245564f20474e49434150533b4e3b3b3b3b353033302030323030203e7461706d6f633c3b4e4f3b303b6f503b454e494c5245564f3b45333032,
0x3b3b3b3b3b4e3b3b3b3b3b4e4f3b303b63503b4549545245444e553b46333032,
0x3b3b3b3b3b4e3b3b3b3b3b4e4f3b303b63503b454954205245544341524148433b30343032,
0x3b3b3b3b3b4e3b3b3b3b3b4e4f3b303b6f503b544e494f50204e4f49545245534e492054455241433b31343032,
0x3b3b3b3b3b4e3b3b3b3b3b4e4f3b303b6f503b4d534952455453413b32343032,
0x3b3b3b3b3b4e3b3b3b3b3b4e4f3b303b6f503b54454c4c5542204e45485059483b33343032,
0x3b3b3b3b3b4e3b3b3b3b3b53433b303b6d533b4853414c53204e4f4954434152463b34343032,
0x3b3b3b3b3b593b3b3b3b3b4e4f3b303b73503b4c4c49555120485449572054454b4341524220455241555153205446454c3b35343032,
0x3b3b3b3b3b593b3b3b3b3b4e4f3b303b65503b4c4c49555120485449572054454b43415242204552415551532054484749523b36343032,
0x3b3b3b3b3b4e3b3b3b3b463330302046333030203e7461706d6f633c3b4e4f3b303b6f503b4b52414d204e4f49545345555120454c42554f443b37343032,
0x3b3b3b3b3b4e3b3b3b3b313230302046333030203e7461706d6f633c3b4e4f3b303b6f503b4b52414d204e4f4954414d414c435845204e4f4954534555513b38343032,
0x3b3b3b3b3b4e3b3b3b3b463330302031323030203e7461706d6f633c3b4e4f3b303b6f503b4b52414d204e4f495453455551204e4f4954414d414c4358453b39343032,
0x3b3b3b3b3b4e3b3b3b3b3b4e4f3b303b6f503b5445204e474953204e41494e4f5249543b41343032,
0x3b3b3b3b3b4e3b3b3b3b3b4e4f3b303b6f503b4e47495320574f52434c49502044455352455645523b42343032,
0x3b3b3b3b3b4e3b3b3b3b3b4e4f3b303b6f503b54454c4c55422053445241575446454c204b43414c423b43343032,
0x3b3b3b3b3b4e3b3b3b3b3b4e4f3b303b6f503b54454c4c55422053445241575448474952204b43414c423b44343032,
0x3b3b3b3b3b4e3b3b3b3b3b4e4f3b303b6f503b4b5349524554534120574f4c3b45343032,
0x3b3b3b3b3b4e3b3b3b3b3b4e4f3b303b6f503b4e4f4c4f43494d45532044455352455645523b46343032,
0x3b3b3b3b3b4e3b3b3b3b3b4e4f3b303b6f503b50552045534f4c433b30353032,
0x3b3b3b3b3b4e3b3b3b3b3b4e4f3b303b6f503b594c4c414349545245562044454e47494c4120534b53495245545341204f57543b31353032,
0x3b3b3b3b3b4e3b3b3b3b3b4e4f3b303b6d533b4e4749532053554e494d204c41494352454d4d4f433b32353032,
0x3b3b3b3b3b4e3b3b3b3b3b4e4f3b303b6f503b4853414420474e5557533b33353032,
0x3b3b3b3b3b4e3b3b3b3b3b4e4f3b303b63503b4549545245444e55204445545245564e493b34353032,
0x3b3b3b3b3b4e3b3b3b3b3b4e4f3b303b6f503b4b52414d204e4f4954415554434e5550205245574f4c463b35353032,
0x3b3b3b3b3b4e3b3b3b3b3b4e4f3b303b6f503b4e4f4954415554434e555020544f442045455248543b36353032,
0x3b3b3b3b3b4e3b3b3b3b32333032203233303220323330322032333032203e7461706d6f633c3b4e4f3b303b6f503b454d49525020454c505552444155513b37353032,
0x3b3b3b3b3b4e3b3b3b3b3b4e4f3b303b6f503b4e4f4954415554434e555020544f442052554f463b38353032,
0x3b3b3b3b3b4e3b3b3b3b3b4e4f3b303b6f503b4e4f4954415554434e555020544f4420455649463b39353032,
0x3b3b3b3b3b4e3b3b3b3b3b4e4f3b303b6f503b4e4f4954415554434e555020544f44204f57543b41353032,
0x3b3b3b3b3b4e3b3b3b3b3b4e4f3b303b6f503b4b52414d20544f442052554f463b42353032,
0x3b3b3b3b3b4e3b3b3b3b3b4e4f3b303b6f503b53534f524320444554544f443b43353032,
0x3b3b3b3b3b4e3b3b3b3b3b4e4f3b303b6f503b4e4f4c4f434952543b44353032,
0x3b3b3b3b3b4e3b3b3b3b3b4e4f3b303b6f503b53544f442052554f46204c414349545245563b45353032,
0x3b3b3b3b3b4e3b3b3b3b30323030203e7461706d6f633c3b53573b303b735a3b4543415053204c41434954414d454854414d204d554944454d3b46353032,
0x3b3b3b3b3b4e3b3b3b3b3b4e423b303b66433b52454e494f4a2044524f573b30363032,
0x3b3b3b3b3b4e3b3b3b3b3b4e423b303b66433b4e4f49544143494c505041204e4f4954434e55463b31363032,
0x3b3b3b3b3b4e3b3b3b3b3b4e423b303b66433b53454d495420454c42495349564e493b32363032,
0x3b3b3b3b3b4e3b3b3b3b3b4e423b303b66433b524f5441524150455320454c42495349564e493b33363032,
0x3b3b3b3b3b4e3b3b3b3b3b4e423b303b66433b53554c5020454c42495349564e493b34363032,
0x3b3b3b3b3b4e3b3b3b3b3b49524c3b303b66433b4554414c4f53492054484749522d4f542d5446454c3b36363032,
0x3b3b3b3b3b4e3b3b3b3b3b494c523b303b66433b4554414c4f5349205446454c2d4f542d54484749523b37363032,
0x3b3b3b3b3b4e3b3b3b3b3b4953463b303b66433b4554414c4f534920474e4f5254532054535249463b38363032,
0x3b3b3b3b3b4e3b3b3b3b3b4944503b303b66433b4554414c4f5349204c414e4f4954434552494420504f503b39363032,
0x3b3b3b3b3b4e3b3b3b3b3b4e423b303b66433b474e4950504157532043495254454d4d59532054494249484e493b41363032,
0x3b3b3b3b3b4e3b3b3b3b3b4e423b303b66433b474e4950504157532043495254454d4d59532045544156495443413b42363032,
0x3b3b3b3b3b4e3b3b3b3b3b4e423b303b66433b474e4950414853204d524f46204349424152412054494249484e493b43363032,
0x3b3b3b3b3b4e3b3b3b3b3b4e423b303b66433b474e4950414853204d524f46204349424152412045544156495443413b44363032,
0x3b3b3b3b3b4e3b3b3b3b3b4e423b303b66433b534550414853205449474944204c414e4f4954414e3b45363032,
0x3b3b3b3b3b4e3b3b3b3b3b4e423b303b66433b534550414853205449474944204c414e494d4f4e3b46363032,
0x3b3b3b3b4f52455a2054494749442054504952435352455055533b4e3b303b303b3b30333030203e72657075733c3b4e453b303b6f4e3b4f52455a2054504952435352455055533b30373032,
0x3b3b3b3b3b4e3b3b3b3b39363030203e72657075733c3b4c3b303b6d4c3b492052455454454c204c4c414d53204e4954414c2054504952435352455055533b31373032,
0x3b3b3b3b52554f462054494749442054504952435352455055533b4e3b343b343b3b34333030203e72657075733c3b4e453b303b6f4e3b52554f462054504952435352455055533b34373032,
0x3b3b3b3b455649462054494749442054504952435352455055533b4e3b353b353b3b35333030203e72657075733c3b4e453b303b6f4e3b455649462054504952435352455055533b35373032,
0x3b3b3b3b5849532054494749442054504952435352455055533b4e3b363b363b3b36333030203e72657075733c3b4e453b303b6f4e3b5849532054504952435352455055533b36373032,
0x3b3b3b3b4e455645532054494749442054504952435352455055533b4e3b373b373b3b37333030203e72657075733c3b4e453b303b6f4e3b4e455645532054504952435352455055533b37373032,
0x3b3b3b3b54484749452054494749442054504952435352455055533b4e3b383b383b3b38333030203e72657075733c3b4e453b303b6f4e3b54484749452054504952435352455055533b38373032,
0x3b3b3b3b454e494e2054494749442054504952435352455055533b4e3b393b393b3b39333030203e72657075733c3b4e453b303b6f4e3b454e494e2054504952435352455055533b39373032,
0x3b3b3b3b3b4e3b3b3b3b42323030203e72657075733c3b53453b303b6d533b4e4749532053554c502054504952435352455055533b41373032,
0x3b3b3b3b53554e494d2d4e45485059482054504952435352455055533b4e3b3b3b3b32313232203e72657075733c3b53453b303b6d533b53554e494d2054504952435352455055533b42373032,
0x3b3b3b3b3b4e3b3b3b3b44333030203e72657075733c3b4e4f3b303b6d533b4e47495320534c415551452054504952435352455055533b43373032,
0x3b3b3b3b5349534548544e4552415020474e494e45504f2054504952435352455055533b593b3b3b3b38323030203e72657075733c3b4e4f3b303b73503b5349534548544e45524150205446454c2054504952435352455055533b44373032,
0x3b3b3b3b5349534548544e4552415020474e49534f4c432054504952435352455055533b593b3b3b3b39323030203e72657075733c3b4e4f3b303b65503b5349534548544e455241502054484749522054504952435352455055533b45373032,
0x3b3b3b3b3b4e3b3b3b3b45363030203e72657075733c3b4c3b303b6d4c3b4e2052455454454c204c4c414d53204e4954414c2054504952435352455055533b46373032,
0x3b3b3b3b4f52455a205449474944205450495243534255533b4e3b303b303b3b30333030203e6275733c3b4e453b303b6f4e3b4f52455a205450495243534255533b30383032,
0x3b3b3b3b454e4f205449474944205450495243534255533b4e3b313b313b3b31333030203e6275733c3b4e453b303b6f4e3b454e4f205450495243534255533b31383032,
0x3b3b3b3b4f5754205449474944205450495243534255533b4e3b323b323b3b32333030203e6275733c3b4e453b303b6f4e3b4f5754205450495243534255533b32383032,
0x3b3b3b3b4545524854205449474944205450495243534255533b4e3b333b333b3b33333030203e6275733c3b4e453b303b6f4e3b4545524854205450495243534255533b33383032,
0x3b3b3b3b52554f46205449474944205450495243534255533b4e3b343b343b3b34333030203e6275733c3b4e453b303b6f4e3b52554f46205450495243534255533b34383032,
0x3b3b3b3b45564946205449474944205450495243534255533b4e3b353b353b3b35333030203e6275733c3b4e453b303b6f4e3b45564946205450495243534255533b35383032,
0x3b3b3b3b584953205449474944205450495243534255533b4e3b363b363b3b36333030203e6275733c3b4e453b303b6f4e3b584953205450495243534255533b36383032,
0x3b3b3b3b4e45564553205449474944205450495243534255533b4e3b373b373b3b37333030203e6275733c3b4e453b303b6f4e3b4e45564553205450495243534255533b37383032,
0x3b3b3b3b5448474945205449474944205450495243534255533b4e3b383b383b3b38333030203e6275733c3b4e453b303b6f4e3b5448474945205450495243534255533b38383032,
0x3b3b3b3b454e494e205449474944205450495243534255533b4e3b393b393b3b39333030203e6275733c3b4e453b303b6f4e3b454e494e205450495243534255533b39383032,
0x3b3b3b3b3b4e3b3b3b3b42323030203e6275733c3b53453b303b6d533b4e4749532053554c50205450495243534255533b41383032,
0x3b3b3b3b53554e494d2d4e4548505948205450495243534255533b4e3b3b3b3b32313232203e6275733c3b53453b303b6d533b53554e494d205450495243534255533b42383032,
0x3b3b3b3b3b4e3b3b3b3b44333030203e6275733c3b4e4f3b303b6d533b4e47495320534c41555145205450495243534255533b43383032,
0x3b3b3b3b5349534548544e4552415020474e494e45504f205450495243534255533b593b3b3b3b38323030203e6275733c3b4e4f3b303b73503b5349534548544e45524150205446454c205450495243534255533b44383032,
0x3b3b3b3b5349534548544e4552415020474e49534f4c43205450495243534255533b593b3b3b3b39323030203e6275733c3b4e4f3b303b65503b5349534548544e45524150205448474952205450495243534255533b45383032,
0x3b3b3b3b3b4e3b3b3b3b31363030203e6275733c3b4c3b303b6d4c3b412052455454454c204c4c414d5320545049524353425553204e4954414c3b30393032,
0x3b3b3b3b3b4e3b3b3b3b35363030203e6275733c3b4c3b303b6d4c3b452052455454454c204c4c414d5320545049524353425553204e4954414c3b31393032,
0x3b3b3b3b3b4e3b3b3b3b46363030203e6275733c3b4c3b303b6d4c3b4f2052455454454c204c4c414d5320545049524353425553204e4954414c3b32393032,
0x3b3b3b3b3b4e3b3b3b3b38373030203e6275733c3b4c3b303b6d4c3b582052455454454c204c4c414d5320545049524353425553204e4954414c3b33393032,
0x3b3b3b3b3b4e3b3b3b3b39353230203e6275733c3b4c3b303b6d4c3b41574843532052455454454c204c4c414d5320545049524353425553204e4954414c3b34393032,
0x3b3b3b3b3b4e3b3b3b3b38363030203e6275733c3b4c3b303b6d4c3b482052455454454c204c4c414d5320545049524353425553204e4954414c3b35393032,
0x3b3b3b3b3b4e3b3b3b3b42363030203e6275733c3b4c3b303b6d4c3b4b2052455454454c204c4c414d5320545049524353425553204e4954414c3b36393032,
0x3b3b3b3b3b4e3b3b3b3b43363030203e6275733c3b4c3b303b6d4c3b4c2052455454454c204c4c414d5320545049524353425553204e4954414c3b37393032,
0x3b3b3b3b3b4e3b3b3b3b44363030203e6275733c3b4c3b303b6d4c3b4d2052455454454c204c4c414d5320545049524353425553204e4954414c3b38393032,
0x3b3b3b3b3b4e3b3b3b3b45363030203e6275733c3b4c3b303b6d4c3b4e2052455454454c204c4c414d5320545049524353425553204e4954414c3b39393032,
0x3b3b3b3b3b4e3b3b3b3b30373030203e6275733c3b4c3b303b6d4c3b502052455454454c204c4c414d5320545049524353425553204e4954414c3b41393032,
0x3b3b3b3b3b4e3b3b3b3b33373030203e6275733c3b4c3b303b6d4c3b532052455454454c204c4c414d5320545049524353425553204e4954414c3b42393032,
0x3b3b3b3b3b4e3b3b3b3b34373030203e6275733c3b4c3b303b6d4c3b542052455454454c204c4c414d5320545049524353425553204e4954414c3b43393032,
0x3b3b3b3b3b4e3b3b3b3b3b54453b303b63533b4e4749532059434e45525255432d4f5255453b30413032,
0x3b3b3b3b3b4e3b3b3b3b3b54453b303b63533b4e474953204e4f4c4f433b31413032,
0x3b3b3b3b3b4e3b3b3b3b3b54453b303b63533b4e474953204f5249455a5552433b32413032,
0x3b3b3b3b3b4e3b3b3b3b3b54453b303b63533b4e47495320434e4152462048434e4552463b33413032,
0x3b3b3b3b3b4e3b3b3b3b3b54453b303b63533b4e474953204152494c3b34413032,
0x3b3b3b3b3b4e3b3b3b3b3b54453b303b63533b4e474953204c4c494d3b35413032,
0x3b3b3b3b3b4e3b3b3b3b3b54453b303b63533b4e47495320415249414e3b36413032,
0x3b3b3b3b3b4e3b3b3b3b3b54453b303b63533b4e474953204154455345503b37413032,
0x3b3b3b3b3b4e3b3b3b3b333730302032353030203e7461706d6f633c3b54453b303b63533b4e4749532045455055523b38413032,
0x3b3b3b3b3b4e3b3b3b3b3b54453b303b63533b4e474953204e4f573b39413032,
0x3b3b3b3b3b4e3b3b3b3b3b54453b303b63533b4e474953204c45514548532057454e3b41413032,
0x3b3b3b3b3b4e3b3b3b3b3b54453b303b63533b4e47495320474e4f443b42413032,
0x3b3b3b3b3b4e3b3b3b3b3b54453b303b63533b4e474953204f5255453b43413032,
0x3b3b3b3b3b4e3b3b3b3b3b54453b303b63533b4e4749532050494b3b44413032,
0x3b3b3b3b3b4e3b3b3b3b3b54453b303b63533b4e474953204b49524755543b45413032,
0x3b3b3b3b3b4e3b3b3b3b3b54453b303b63533b4e47495320414d48434152443b46413032,
0x3b3b3b3b3b4e3b3b3b3b3b54453b303b63533b4e47495320594e4e4550204e414d5245473b30423032,
0x3b3b3b3b3b4e3b3b3b3b3b54453b303b63533b4e474953204f5345503b31423032,
0x3b3b3b3b3b4e3b3b3b3b3b54453b303b63533b4e47495320494e41524155473b32423032,
0x3b3b3b3b3b4e3b3b3b3b3b54453b303b63533b4e474953204c4152545355413b33423032,
0x3b3b3b3b3b4e3b3b3b3b3b54453b303b63533b4e4749532041494e565952483b34423032,
0x3b3b3b3b3b4e3b3b3b3b3b54453b303b63533b4e47495320494445433b35423032,
0x3b3b3b3b3b4e3b3b3b3b3b54453b303b63533b4e4749532053494f4e52554f5420455256494c3b36423032,
0x3b3b3b3b3b4e3b3b3b3b3b54453b303b63533b4e474953204f4c494d534550533b37423032,
0x3b3b3b3b3b4e3b3b3b3b3b54453b303b63533b4e4749532045474e45543b38423032,
0x3b3b3b3b3b4e3b3b3b3b3b54453b303b63533b4e474953204545505552204e4149444e493b39423032,
0x3b3b3b3b3b4e3b3b3b3b3b54453b303b63533b4e474953204152494c204853494b5255543b41423032,
0x3b3b3b3b3b4e3b3b3b3b3b54453b303b63533b4e474953204b52414d20434944524f4e3b42423032,
0x3b3b3b3b3b4e3b3b3b3b3b54453b303b63533b4e4749532054414e414d3b43423032,
0x3b3b3b3b3b4e3b3b3b3b3b54453b303b63533b4e47495320454c4255523b44423032,
0x3b3b3b3b3b4e3b3b3b3b3b54453b303b63533b4e474953204952414c3b45423032,
0x3b3b3b3b45564f4241204e4f4f50524148205446454c20474e49434150532d4e4f4e3b4e3b3b3b3b3b4d534e3b3033323b6e4d3b45564f4241204e4f4f50524148205446454c20474e494e49424d4f433b30443032,
0x3b3b3b3b45564f4241204e4f4f5052414820544847495220474e49434150532d4e4f4e3b4e3b3b3b3b3b4d534e3b3033323b6e4d3b45564f4241204e4f4f5052414820544847495220474e494e49424d4f433b31443032,
0x3b3b3b3b59414c5245564f20524142204c4143495452455620474e4f4c20474e49434150532d4e4f4e3b4e3b3b3b3b3b4d534e3b313b6e4d3b59414c5245564f20454e494c204c4143495452455620474e4f4c20474e494e49424d4f433b32443032,
0x3b3b3b3b59414c5245564f20524142204c414349545245562054524f485320474e49434150532d4e4f4e3b4e3b3b3b3b3b4d534e3b313b6e4d3b59414c5245564f20454e494c204c414349545245562054524f485320474e494e49424d4f433b33443032,
0x3b3b3b3b45564f424120574f52524120455349574b434f4c4349544e4120474e49434150532d4e4f4e3b4e3b3b3b3b3b4d534e3b3033323b6e4d3b45564f424120574f52524120455349574b434f4c4349544e4120474e494e49424d4f433b34443032,
0x3b3b3b3b45564f424120574f52524120455349574b434f4c4320474e49434150532d4e4f4e3b4e3b3b3b3b3b4d534e3b3033323b6e4d3b45564f424120574f52524120455349574b434f4c4320474e494e49424d4f433b35443032,
0x3b3b3b3b45564f424120574f525241205446454c20474e49434150532d4e4f4e3b4e3b3b3b3b3b4d534e3b3033323b6e4d3b45564f424120574f525241205446454c20474e494e49424d4f433b36443032,
0x3b3b3b3b45564f424120574f52524120544847495220474e49434150532d4e4f4e3b4e3b3b3b3b3b4d534e3b3033323b6e4d3b45564f424120574f52524120544847495220474e494e49424d4f433b37443032,
0x3b3b3b3b59414c5245564f20474e495220474e49434150532d4e4f4e3b4e3b3b3b3b3b4d534e3b313b6e4d3b59414c5245564f20474e495220474e494e49424d4f433b38443032,
0x3b3b3b3b59414c5245564f20474e495220455349574b434f4c4320474e49434150532d4e4f4e3b4e3b3b3b3b3b4d534e3b313b6e4d3b59414c5245564f20474e495220455349574b434f4c4320474e494e49424d4f433b39443032,
0x3b3b3b3b59414c5245564f20474e495220455349574b434f4c4349544e4120474e49434150532d4e4f4e3b4e3b3b3b3b3b4d534e3b313b6e4d3b59414c5245564f20474e495220455349574b434f4c4349544e4120474e494e49424d4f433b41443032,
0x3b3b3b3b45564f42412053544f4420454552485420474e49434150532d4e4f4e3b4e3b3b3b3b3b4d534e3b3033323b6e4d3b45564f42412053544f4420454552485420474e494e49424d4f433b42443032,
0x3b3b3b3b45564f42412053544f442052554f4620474e49434150532d4e4f4e3b4e3b3b3b3b3b4d534e3b3033323b6e4d3b45564f42412053544f442052554f4620474e494e49424d4f433b43443032,
0x3b3b3b3b454c4352494320474e49534f4c434e453b4e3b3b3b3b3b4d534e3b303b654d3b454c4352494320474e49534f4c434e4520474e494e49424d4f433b44443032,
0x3b3b3b3b45524155515320474e49534f4c434e453b4e3b3b3b3b3b4d534e3b303b654d3b45524155515320474e49534f4c434e4520474e494e49424d4f433b45443032,
0x3b3b3b3b444e4f4d41494420474e49534f4c434e453b4e3b3b3b3b3b4d534e3b303b654d3b444e4f4d41494420474e49534f4c434e4520474e494e49424d4f433b46443032,
0x3b3b3b3b4853414c5320454c4352494320474e49534f4c434e453b4e3b3b3b3b3b4d534e3b303b654d3b4853414c534b43414220454c4352494320474e49534f4c434e4520474e494e49424d4f433b30453032,
0x3b3b3b3b45564f424120574f525241205448474952205446454c20474e49434150532d4e4f4e3b4e3b3b3b3b3b4d534e3b3033323b6e4d3b45564f424120574f525241205448474952205446454c20474e494e49424d4f433b31453032,
0x3b3b3b3b3b4e3b3b3b3b3b4d534e3b303b654d3b4e454552435320474e49534f4c434e4520474e494e49424d4f433b32453032,
0x3b3b3b3b3b4e3b3b3b3b3b4d534e3b303b654d3b50414359454b20474e49534f4c434e4520474e494e49424d4f433b33453032,
0x3b3b3b3b3b4e3b3b3b3b3b4d534e3b303b654d3b454c474e4149525420474e49544e494f502044524157505520474e49534f4c434e4520474e494e49424d4f433b34453032,
0x3b3b3b3b3b4e3b3b3b3b3b4d534e3b313b6e4d3b59414c5245564f20535544494c4f53204553524556455220474e494e49424d4f433b35453032,
0x3b3b3b3b3b4e3b3b3b3b3b4d534e3b313b6e4d3b59414c5245564f20454b4f525453204c4143495452455620454c42554f4420474e494e49424d4f433b36453032,
0x3b3b3b3b3b4e3b3b3b3b3b4d534e3b3033323b6e4d3b4c4f424d595320595449554e4e4120474e494e49424d4f433b37453032,
0x3b3b3b3b3b4e3b3b3b3b3b4d534e3b3032323b6e4d3b544f445245444e5520454c5049525420474e494e49424d4f433b38453032,
0x3b3b3b3b3b4e3b3b3b3b3b4d534e3b3033323b6e4d3b45564f424120454744495242204544495720474e494e49424d4f433b39453032,
0x3b3b3b3b3b4e3b3b3b3b3b4d534e3b313b6e4d3b59414c5245564f20574f5252412053445241575446454c20474e494e49424d4f433b41453032,
0x3b3b3b3b3b4e3b3b3b3b3b4d534e3b313b6e4d3b59414c5245564f20535544494c4f5320454c42554f4420474e4f4c20474e494e49424d4f433b42453032,
0x3b3b3b3b3b4e3b3b3b3b3b4d534e3b3032323b6e4d3b53445241574e574f4420425241422048544957204e4f4f50524148205344524157544847495220474e494e49424d4f433b43453032,
0x3b3b3b3b3b4e3b3b3b3b3b4d534e3b3032323b6e4d3b53445241574e574f4420425241422048544957204e4f4f505241482053445241575446454c20474e494e49424d4f433b44453032,
0x3b3b3b3b3b4e3b3b3b3b3b4d534e3b3032323b6e4d3b574f4c454220574f525241205446454c20474e494e49424d4f433b45453032,
0x3b3b3b3b3b4e3b3b3b3b3b4d534e3b3032323b6e4d3b574f4c454220574f52524120544847495220474e494e49424d4f433b46453032,
0x3b3b3b3b3b4e3b3b3b3b3b4d534e3b3033323b6e4d3b45564f4241204b5349524554534120474e494e49424d4f433b30463032,
0x3b3b3b3b3b4e3b3b3b3b3336303020463230302031363030203e7461706d6f633c3b4e4f3b303b6f533b464f20544e554f4343413b30303132,
0x3b3b3b3b3b4e3b3b3b3b3337303020463230302031363030203e7461706d6f633c3b4e4f3b303b6f533b5443454a42555320454854204f54204445535345524444413b31303132,
0x3b3b3b3b43204b43555254532d454c42554f443b4e3b3b3b3b33343030203e746e6f663c3b4c3b303b754c3b43204c415449504143204b43555254532d454c42554f443b32303132,
0x3b3b3b3b454441524749544e454320534545524745443b4e3b3b3b3b333430302030423030203e7461706d6f633c3b4e4f3b303b6f533b535549534c4543204545524745443b33303132,
0x3b3b3b3b4c4f424d5953204c20433b4e3b3b3b3b3b4e4f3b303b6f533b4c4f424d595320454e494c204552544e45433b34303132,
0x3b3b3b3b3b4e3b3b3b3b4636303020463230302033363030203e7461706d6f633c3b4e4f3b303b6f533b464f20455241433b35303132,
0x3b3b3b3b3b4e3b3b3b3b3537303020463230302033363030203e7461706d6f633c3b4e4f3b303b6f533b414e5520414441433b36303132,
0x3b3b3b3b5352454c55453b4e3b3b3b3b30393130203e7461706d6f633c3b4c3b303b754c3b544e4154534e4f432052454c55453b37303132,
0x3b3b3b3b3b4e3b3b3b3b3b4e4f3b303b6f533b454c50555243533b38303132,
0x3b3b3b3b544945484e455248414620534545524745443b4e3b3b3b3b363430302030423030203e7461706d6f633c3b4e4f3b303b6f533b544945484e4552484146204545524745443b39303132,
0x3b3b3b3b3b4e3b3b3b3b37363030203e746e6f663c3b4c3b303b6c4c3b47204c4c414d53205450495243533b41303132,
0x3b3b3b3b48205450495243533b4e3b3b3b3b38343030203e746e6f663c3b4c3b303b754c3b48204c415449504143205450495243533b42303132,
0x3b3b3b3b482052455454454c2d4b43414c423b4e3b3b3b3b38343030203e746e6f663c3b4c3b303b754c3b48204c4154495041432052455454454c2d4b43414c423b43303132,
0x3b3b3b3b48204b43555254532d454c42554f443b4e3b3b3b3b38343030203e746e6f663c3b4c3b303b754c3b48204c415449504143204b43555254532d454c42554f443b44303132,
0x3b3b3b3b3b4e3b3b3b3b38363030203e746e6f663c3b4c3b303b6c4c3b544e4154534e4f43204b434e414c503b45303132,
0x3b3b3b3b49502032205245564f20544e4154534e4f43204b434e414c503b4e3b3b3b3b37323130203e746e6f663c3b4c3b303b6c4c3b4950204f5754205245564f20544e4154534e4f43204b434e414c503b46303132,
0x3b3b3b3b49205450495243533b4e3b3b3b3b39343030203e746e6f663c3b4c3b303b754c3b49204c415449504143205450495243533b30313132,
0x3b3b3b3b492052455454454c2d4b43414c423b4e3b3b3b3b39343030203e746e6f663c3b4c3b303b754c3b49204c4154495041432052455454454c2d4b43414c423b31313132,
0x3b3b3b3b4c205450495243533b4e3b3b3b3b43343030203e746e6f663c3b4c3b303b754c3b4c204c415449504143205450495243533b32313132,
0x3b3b3b3b3b4e3b3b3b3b43363030203e746e6f663c3b4c3b303b6c4c3b4c204c4c414d53205450495243533b33313132,
0x3b3b3b3b3b4e3b3b3b3b3b4e4f3b303b6f533b4c4f424d5953205241422042204c3b34313132,
0x3b3b3b3b4e204b43555254532d454c42554f443b4e3b3b3b3b45343030203e746e6f663c3b4c3b303b754c3b4e204c415449504143204b43555254532d454c42554f443b35313132,
0x3b3b3b3b4f52454d554e3b4e3b3b3b3b463630302045343030203e7461706d6f633c3b4e4f3b303b6f533b4e474953204f52454d554e3b36313132,
0x3b3b3b3b3b4e3b3b3b3b3b4e4f3b303b6f533b544847495259504f4320474e4944524f43455220444e554f533b37313132,
0x3b3b3b3b50205450495243533b4e3b3b3b3b3b4e4f3b303b6d533b50204c415449504143205450495243533b38313132,
0x3b3b3b3b50204b43555254532d454c42554f443b4e3b3b3b3b30353030203e746e6f663c3b4c3b303b754c3b50204c415449504143204b43555254532d454c42554f443b39313132,
0x3b3b3b3b51204b43555254532d454c42554f443b4e3b3b3b3b31353030203e746e6f663c3b4c3b303b754c3b51204c415449504143204b43555254532d454c42554f443b41313132,
0x3b3b3b3b52205450495243533b4e3b3b3b3b32353030203e746e6f663c3b4c3b303b754c3b52204c415449504143205450495243533b42313132,
0x3b3b3b3b522052455454454c2d4b43414c423b4e3b3b3b3b32353030203e746e6f663c3b4c3b303b754c3b52204c4154495041432052455454454c2d4b43414c423b43313132,
0x3b3b3b3b52204b43555254532d454c42554f443b4e3b3b3b3b32353030203e746e6f663c3b4c3b303b754c3b52204c415449504143204b43555254532d454c42554f443b44313132,
0x3b3b3b3b3b4e3b3b3b3b3b4e4f3b303b6f533b454b4154204e4f495450495243534552503b45313132,
0x3b3b3b3b3b4e3b3b3b3b3b4e4f3b303b6f533b45534e4f505345523b46313132,
0x3b3b3b3b3b4e3b3b3b3b443430302033353030203e72657075733c3b4e4f3b303b6f533b4b52414d20454349565245533b30323132,
0x3b3b3b3b4c4f424d5953204c204520543b4e3b3b3b3b4334303020353430302034353030203e7461706d6f633c3b4e4f3b303b6f533b4e47495320454e4f4850454c45543b31323132,
0x3b3b3b3b4b52414d45444152543b4e3b3b3b3b443430302034353030203e72657075733c3b4e4f3b303b6f533b4e474953204b52414d2045444152543b32323132,
0x3b3b3b3b3b4e3b3b3b3b3b4e4f3b303b6f533b454c4349535245563b33323132,
0x3b3b3b3b5a204b43555254532d454c42554f443b4e3b3b3b3b41353030203e746e6f663c3b4c3b303b754c3b5a204c415449504143204b43555254532d454c42554f443b34323132,
0x3b3b3b3b45434e554f3b4e3b3b3b3b3b4e4f3b303b6f533b4e4749532045434e554f3b35323132,
0x3b394333303b3b3b4d484f3b4e3b3b3b3b394133303b4c3b303b754c3b4e474953204d484f3b36323132,
0x3b3b3b3b4f484d3b4e3b3b3b3b3b4e4f3b303b6f533b4e474953204d484f204445545245564e493b37323132,
0x3b3b3b3b5a2052455454454c2d4b43414c423b4e3b3b3b3b41353030203e746e6f663c3b4c3b303b754c3b5a204c4154495041432052455454454c2d4b43414c423b38323132,
0x3b3b3b3b3b4e3b3b3b3b3b4e4f3b303b6f533b41544f492052455454454c204c4c414d53204b454552472044454e5255543b39323132,
0x3b423630303b3b3b4e49564c454b20534545524745443b4e3b3b3b3b423430303b4c3b303b754c3b4e474953204e49564c454b3b41323132,
0x3b354530303b3b3b54494e55204d4f525453474e413b4e3b3b3b3b354330303b4c3b303b754c3b4e474953204d4f525453474e413b42323132,
0x3b3b3b3b42205450495243533b4e3b3b3b3b32343030203e746e6f663c3b4c3b303b754c3b42204c415449504143205450495243533b43323132,
0x3b3b3b3b432052455454454c2d4b43414c423b4e3b3b3b3b33343030203e746e6f663c3b4c3b303b754c3b43204c4154495041432052455454454c2d4b43414c423b44323132,
0x3b3b3b3b3b4e3b3b3b3b3b54453b303b6f533b4c4f424d595320444554414d495453453b45323132,
0x3b3b3b3b3b4e3b3b3b3b35363030203e746e6f663c3b4c3b303b6c4c3b45204c4c414d53205450495243533b46323132,
0x3b3b3b3b45205450495243533b4e3b3b3b3b35343030203e746e6f663c3b4c3b303b754c3b45204c415449504143205450495243533b30333132,
0x3b3b3b3b46205450495243533b4e3b3b3b3b36343030203e746e6f663c3b4c3b303b754c3b46204c415449504143205450495243533b31333132]

/-- src/u5e/props/UnicodeData.txt lines 7425-7680. -/
def rawUcd29 : List Nat := [
0x3b453431323b3b3b462044454e5255543b4e3b3b3b3b3b4c3b303b754c3b46204c4154495041432044454e5255543b32333132,
0x3b3b3b3b4d205450495243533b4e3b3b3b3b44343030203e746e6f663c3b4c3b303b754c3b4d204c415449504143205450495243533b33333132,
0x3b3b3b3b3b4e3b3b3b3b46363030203e746e6f663c3b4c3b303b6c4c3b4f204c4c414d53205450495243533b34333132,
0x3b3b3b3b4c414e4944524143204554494e4946534e4152542054535249463b4e3b3b3b3b30443530203e7461706d6f633c3b4c3b303b6f4c3b4c4f424d59532046454c413b35333132,
0x3b3b3b3b4c414e4944524143204554494e4946534e41525420444e4f4345533b4e3b3b3b3b31443530203e7461706d6f633c3b4c3b303b6f4c3b4c4f424d5953205445423b36333132,
0x3b3b3b3b4c414e4944524143204554494e4946534e4152542044524948543b4e3b3b3b3b32443530203e7461706d6f633c3b4c3b303b6f4c3b4c4f424d5953204c454d49473b37333132,
0x3b3b3b3b4c414e4944524143204554494e4946534e41525420485452554f463b4e3b3b3b3b33443530203e7461706d6f633c3b4c3b303b6f4c3b4c4f424d59532054454c41443b38333132,
0x3b3b3b3b3b4e3b3b3b3b39363030203e746e6f663c3b4c3b303b6c4c3b454352554f53204e4f4954414d524f464e493b39333132,
0x3b3b3b3b3b4e3b3b3b3b3b4e4f3b303b6f533b51204c4154495041432044455441544f523b41333132,
0x3b3b3b3b3b4e3b3b3b3b3835303020313430302036343030203e7461706d6f633c3b4e4f3b303b6f533b4e47495320454c494d49534341463b42333132,
0x3b3b3b3b3b4e3b3b3b3b30433330203e746e6f663c3b4c3b303b6c4c3b4950204c4c414d53204b43555254532d454c42554f443b43333132,
0x3b3b3b3b3b4e3b3b3b3b33423330203e746e6f663c3b4c3b303b6c4c3b414d4d4147204c4c414d53204b43555254532d454c42554f443b44333132,
0x3b3b3b3b3b4e3b3b3b3b33393330203e746e6f663c3b4c3b303b754c3b414d4d4147204c415449504143204b43555254532d454c42554f443b45333132,
0x3b3b3b3b3b4e3b3b3b3b30413330203e746e6f663c3b4c3b303b754c3b4950204c415449504143204b43555254532d454c42554f443b46333132,
0x3b3b3b3b3b593b3b3b3b31313232203e746e6f663c3b4e4f3b303b6d533b4e4f4954414d4d5553205952412d4e204b43555254532d454c42554f443b30343132,
0x3b3b3b3b3b4e3b3b3b3b3b4e4f3b303b6d533b47204c4154495041432046495245532d534e41532044454e5255543b31343132,
0x3b3b3b3b3b4e3b3b3b3b3b4e4f3b303b6d533b4c204c4154495041432046495245532d534e41532044454e5255543b32343132,
0x3b3b3b3b3b4e3b3b3b3b3b4e4f3b303b6d533b4c204c4154495041432046495245532d534e41532044455352455645523b33343132,
0x3b3b3b3b3b4e3b3b3b3b3b4e4f3b303b6d533b59204c4154495041432046495245532d534e41532044454e5255543b34343132,
0x3b3b3b3b3b4e3b3b3b3b34343030203e746e6f663c3b4c3b303b754c3b44204c4154495041432043494c415449204b43555254532d454c42554f443b35343132,
0x3b3b3b3b3b4e3b3b3b3b34363030203e746e6f663c3b4c3b303b6c4c3b44204c4c414d532043494c415449204b43555254532d454c42554f443b36343132,
0x3b3b3b3b3b4e3b3b3b3b35363030203e746e6f663c3b4c3b303b6c4c3b45204c4c414d532043494c415449204b43555254532d454c42554f443b37343132,
0x3b3b3b3b3b4e3b3b3b3b39363030203e746e6f663c3b4c3b303b6c4c3b49204c4c414d532043494c415449204b43555254532d454c42554f443b38343132,
0x3b3b3b3b3b4e3b3b3b3b41363030203e746e6f663c3b4c3b303b6c4c3b4a204c4c414d532043494c415449204b43555254532d454c42554f443b39343132,
0x3b3b3b3b3b4e3b3b3b3b3b4e4f3b303b6f533b454e494c2059545245504f52503b41343132,
0x3b3b3b3b3b4e3b3b3b3b3b4e4f3b303b6d533b444e41535245504d412044454e5255543b42343132,
0x3b3b3b3b3b4e3b3b3b3b3b4e4f3b303b6f533b4e474953205245503b43343132,
0x3b3b3b3b3b4e3b3b3b3b3b4e4f3b303b6f533b42414b534c45534549544b413b44343132,
0x323331323b3b323331323b3b3b4e3b3b3b3b3b4c3b303b6c4c3b46204c4c414d532044454e5255543b45343132,
0x3b3b3b3b3b4e3b3b3b3b3b4c3b303b6f533b454352554f53204e41544952414d415320524f46204c4f424d59533b46343132,
0x3b3b3b3b3b4e3b372f313b3b3b3733303020343430322031333030203e6e6f6974636172663c3b4e4f3b303b6f4e3b48544e4556455320454e4f204e4f495443415246205241474c55563b30353132,
0x3b3b3b3b3b4e3b392f313b3b3b3933303020343430322031333030203e6e6f6974636172663c3b4e4f3b303b6f4e3b48544e494e20454e4f204e4f495443415246205241474c55563b31353132,
0x3b3b3b3b3b4e3b30312f313b3b3b30333030203133303020343430322031333030203e6e6f6974636172663c3b4e4f3b303b6f4e3b48544e455420454e4f204e4f495443415246205241474c55563b32353132,
0x3b3b3b3b445249485420454e4f204e4f4954434152463b4e3b332f313b3b3b3333303020343430322031333030203e6e6f6974636172663c3b4e4f3b303b6f4e3b445249485420454e4f204e4f495443415246205241474c55563b33353132,
0x3b3b3b3b534452494854204f5754204e4f4954434152463b4e3b332f323b3b3b3333303020343430322032333030203e6e6f6974636172663c3b4e4f3b303b6f4e3b534452494854204f5754204e4f495443415246205241474c55563b34353132,
0x3b3b3b3b485446494620454e4f204e4f4954434152463b4e3b352f313b3b3b3533303020343430322031333030203e6e6f6974636172663c3b4e4f3b303b6f4e3b485446494620454e4f204e4f495443415246205241474c55563b35353132,
0x3b3b3b3b534854464946204f5754204e4f4954434152463b4e3b352f323b3b3b3533303020343430322032333030203e6e6f6974636172663c3b4e4f3b303b6f4e3b534854464946204f5754204e4f495443415246205241474c55563b36353132,
0x3b3b3b3b534854464946204545524854204e4f4954434152463b4e3b352f333b3b3b3533303020343430322033333030203e6e6f6974636172663c3b4e4f3b303b6f4e3b534854464946204545524854204e4f495443415246205241474c55563b37353132,
0x3b3b3b3b5348544649462052554f46204e4f4954434152463b4e3b352f343b3b3b3533303020343430322034333030203e6e6f6974636172663c3b4e4f3b303b6f4e3b5348544649462052554f46204e4f495443415246205241474c55563b38353132,
0x3b3b3b3b485458495320454e4f204e4f4954434152463b4e3b362f313b3b3b3633303020343430322031333030203e6e6f6974636172663c3b4e4f3b303b6f4e3b485458495320454e4f204e4f495443415246205241474c55563b39353132,
0x3b3b3b3b5348545849532045564946204e4f4954434152463b4e3b362f353b3b3b3633303020343430322035333030203e6e6f6974636172663c3b4e4f3b303b6f4e3b5348545849532045564946204e4f495443415246205241474c55563b41353132,
0x3b3b3b3b48544847494520454e4f204e4f4954434152463b4e3b382f313b3b3b3833303020343430322031333030203e6e6f6974636172663c3b4e4f3b303b6f4e3b48544847494520454e4f204e4f495443415246205241474c55563b42353132,
0x3b3b3b3b53485448474945204545524854204e4f4954434152463b4e3b382f333b3b3b3833303020343430322033333030203e6e6f6974636172663c3b4e4f3b303b6f4e3b53485448474945204545524854204e4f495443415246205241474c55563b43353132,
0x3b3b3b3b534854484749452045564946204e4f4954434152463b4e3b382f353b3b3b3833303020343430322035333030203e6e6f6974636172663c3b4e4f3b303b6f4e3b534854484749452045564946204e4f495443415246205241474c55563b44353132,
0x3b3b3b3b53485448474945204e45564553204e4f4954434152463b4e3b382f373b3b3b3833303020343430322037333030203e6e6f6974636172663c3b4e4f3b303b6f4e3b53485448474945204e45564553204e4f495443415246205241474c55563b45353132,
0x3b3b3b3b3b4e3b313b3b3b343430322031333030203e6e6f6974636172663c3b4e4f3b303b6f4e3b454e4f20524f544152454d554e204e4f4954434152463b46353132,
0x3b303731323b3b3b3b4e3b313b3b3b39343030203e7461706d6f633c3b4c3b303b6c4e3b454e4f204c4152454d554e204e414d4f523b30363132,
0x3b313731323b3b3b3b4e3b323b3b3b393430302039343030203e7461706d6f633c3b4c3b303b6c4e3b4f5754204c4152454d554e204e414d4f523b31363132,
0x3b323731323b3b3b3b4e3b333b3b3b3934303020393430302039343030203e7461706d6f633c3b4c3b303b6c4e3b4545524854204c4152454d554e204e414d4f523b32363132,
0x3b333731323b3b3b3b4e3b343b3b3b363530302039343030203e7461706d6f633c3b4c3b303b6c4e3b52554f46204c4152454d554e204e414d4f523b33363132,
0x3b343731323b3b3b3b4e3b353b3b3b36353030203e7461706d6f633c3b4c3b303b6c4e3b45564946204c4152454d554e204e414d4f523b34363132,
0x3b353731323b3b3b3b4e3b363b3b3b393430302036353030203e7461706d6f633c3b4c3b303b6c4e3b584953204c4152454d554e204e414d4f523b35363132,
0x3b363731323b3b3b3b4e3b373b3b3b3934303020393430302036353030203e7461706d6f633c3b4c3b303b6c4e3b4e45564553204c4152454d554e204e414d4f523b36363132,
0x3b373731323b3b3b3b4e3b383b3b3b39343030203934303020393430302036353030203e7461706d6f633c3b4c3b303b6c4e3b5448474945204c4152454d554e204e414d4f523b37363132,
0x3b383731323b3b3b3b4e3b393b3b3b383530302039343030203e7461706d6f633c3b4c3b303b6c4e3b454e494e204c4152454d554e204e414d4f523b38363132,
0x3b393731323b3b3b3b4e3b30313b3b3b38353030203e7461706d6f633c3b4c3b303b6c4e3b4e4554204c4152454d554e204e414d4f523b39363132,
0x3b413731323b3b3b3b4e3b31313b3b3b393430302038353030203e7461706d6f633c3b4c3b303b6c4e3b4e4556454c45204c4152454d554e204e414d4f523b41363132,
0x3b423731323b3b3b3b4e3b32313b3b3b3934303020393430302038353030203e7461706d6f633c3b4c3b303b6c4e3b45564c455754204c4152454d554e204e414d4f523b42363132,
0x3b433731323b3b3b3b4e3b30353b3b3b43343030203e7461706d6f633c3b4c3b303b6c4e3b5954464946204c4152454d554e204e414d4f523b43363132,
0x3b443731323b3b3b3b4e3b3030313b3b3b33343030203e7461706d6f633c3b4c3b303b6c4e3b444552444e554820454e4f204c4152454d554e204e414d4f523b44363132,
0x3b453731323b3b3b3b4e3b3030353b3b3b34343030203e7461706d6f633c3b4c3b303b6c4e3b444552444e55482045564946204c4152454d554e204e414d4f523b45363132,
0x3b463731323b3b3b3b4e3b303030313b3b3b44343030203e7461706d6f633c3b4c3b303b6c4e3b444e4153554f485420454e4f204c4152454d554e204e414d4f523b46363132,
0x303631323b3b303631323b3b3b4e3b313b3b3b39363030203e7461706d6f633c3b4c3b303b6c4e3b454e4f204c4152454d554e204e414d4f52204c4c414d533b30373132,
0x313631323b3b313631323b3b3b4e3b323b3b3b393630302039363030203e7461706d6f633c3b4c3b303b6c4e3b4f5754204c4152454d554e204e414d4f52204c4c414d533b31373132,
0x323631323b3b323631323b3b3b4e3b333b3b3b3936303020393630302039363030203e7461706d6f633c3b4c3b303b6c4e3b4545524854204c4152454d554e204e414d4f52204c4c414d533b32373132,
0x333631323b3b333631323b3b3b4e3b343b3b3b363730302039363030203e7461706d6f633c3b4c3b303b6c4e3b52554f46204c4152454d554e204e414d4f52204c4c414d533b33373132,
0x343631323b3b343631323b3b3b4e3b353b3b3b36373030203e7461706d6f633c3b4c3b303b6c4e3b45564946204c4152454d554e204e414d4f52204c4c414d533b34373132,
0x353631323b3b353631323b3b3b4e3b363b3b3b393630302036373030203e7461706d6f633c3b4c3b303b6c4e3b584953204c4152454d554e204e414d4f52204c4c414d533b35373132,
0x363631323b3b363631323b3b3b4e3b373b3b3b3936303020393630302036373030203e7461706d6f633c3b4c3b303b6c4e3b4e45564553204c4152454d554e204e414d4f52204c4c414d533b36373132,
0x373631323b3b373631323b3b3b4e3b383b3b3b39363030203936303020393630302036373030203e7461706d6f633c3b4c3b303b6c4e3b5448474945204c4152454d554e204e414d4f52204c4c414d533b37373132,
0x383631323b3b383631323b3b3b4e3b393b3b3b383730302039363030203e7461706d6f633c3b4c3b303b6c4e3b454e494e204c4152454d554e204e414d4f52204c4c414d533b38373132,
0x393631323b3b393631323b3b3b4e3b30313b3b3b38373030203e7461706d6f633c3b4c3b303b6c4e3b4e4554204c4152454d554e204e414d4f52204c4c414d533b39373132,
0x413631323b3b413631323b3b3b4e3b31313b3b3b393630302038373030203e7461706d6f633c3b4c3b303b6c4e3b4e4556454c45204c4152454d554e204e414d4f52204c4c414d533b41373132,
0x423631323b3b423631323b3b3b4e3b32313b3b3b3936303020393630302038373030203e7461706d6f633c3b4c3b303b6c4e3b45564c455754204c4152454d554e204e414d4f52204c4c414d533b42373132,
0x433631323b3b433631323b3b3b4e3b30353b3b3b43363030203e7461706d6f633c3b4c3b303b6c4e3b5954464946204c4152454d554e204e414d4f52204c4c414d533b43373132,
0x443631323b3b443631323b3b3b4e3b3030313b3b3b33363030203e7461706d6f633c3b4c3b303b6c4e3b444552444e554820454e4f204c4152454d554e204e414d4f52204c4c414d533b44373132,
0x453631323b3b453631323b3b3b4e3b3030353b3b3b34363030203e7461706d6f633c3b4c3b303b6c4e3b444552444e55482045564946204c4152454d554e204e414d4f52204c4c414d533b45373132,
0x463631323b3b463631323b3b3b4e3b303030313b3b3b44363030203e7461706d6f633c3b4c3b303b6c4e3b444e4153554f485420454e4f204c4152454d554e204e414d4f52204c4c414d533b46373132,
0x3b3b3b3b3b4e3b303030313b3b3b3b4c3b303b6c4e3b44204320444e4153554f485420454e4f204c4152454d554e204e414d4f523b30383132,
0x3b3b3b3b3b4e3b303030353b3b3b3b4c3b303b6c4e3b444e4153554f48542045564946204c4152454d554e204e414d4f523b31383132,
0x3b3b3b3b3b4e3b30303030313b3b3b3b4c3b303b6c4e3b444e4153554f4854204e4554204c4152454d554e204e414d4f523b32383132,
0x3b343831323b3b3b3b4e3b3b3b3b3b4c3b303b754c3b444552444e554820454e4f204445535245564552204c4152454d554e204e414d4f523b33383132,
0x333831323b3b333831323b3b3b4e3b3b3b3b3b4c3b303b6c4c3b432044455352455645522052455454454c204c4c414d53204e4954414c3b34383132,
0x3b3b3b3b3b4e3b363b3b3b3b4c3b303b6c4e3b4d524f46204554414c20584953204c4152454d554e204e414d4f523b35383132,
0x3b3b3b3b3b4e3b30353b3b3b3b4c3b303b6c4e3b4d524f4620594c524145205954464946204c4152454d554e204e414d4f523b36383132,
0x3b3b3b3b3b4e3b30303030353b3b3b3b4c3b303b6c4e3b444e4153554f4854205954464946204c4152454d554e204e414d4f523b37383132,
0x3b3b3b3b3b4e3b3030303030313b3b3b3b4c3b303b6c4e3b444e4153554f485420444552444e554820454e4f204c4152454d554e204e414d4f523b38383132,
0x3b3b3b3b3b4e3b303b3b3b3333303020343430322030333030203e6e6f6974636172663c3b4e4f3b303b6f4e3b534452494854204f52455a204e4f495443415246205241474c55563b39383132,
0x3b3b3b3b3b4e3b3b3b3b3b4e4f3b303b6f533b4f57542054494749442044454e5255543b41383132,
0x3b3b3b3b3b4e3b3b3b3b3b4e4f3b303b6f533b45455248542054494749442044454e5255543b42383132,
0x3b3b3b3b574f525241205446454c3b4e3b3b3b3b3b4e4f3b303b6d533b574f5252412053445241575446454c3b30393132,
0x3b3b3b3b574f5252412050553b4e3b3b3b3b3b4e4f3b303b6d533b574f52524120534452415750553b31393132,
0x3b3b3b3b574f5252412054484749523b4e3b3b3b3b3b4e4f3b303b6d533b574f52524120534452415754484749523b32393132,
0x3b3b3b3b574f525241204e574f443b4e3b3b3b3b3b4e4f3b303b6d533b574f5252412053445241574e574f443b33393132,
0x3b3b3b3b3b4e3b3b3b3b3b4e4f3b303b6d533b574f525241205448474952205446454c3b34393132,
0x3b3b3b3b3b4e3b3b3b3b3b4e4f3b303b6f533b574f525241204e574f442050553b35393132,
0x3b3b3b3b574f525241205446454c2052455050553b4e3b3b3b3b3b4e4f3b303b6f533b574f5252412054534557204854524f4e3b36393132,
0x3b3b3b3b574f5252412054484749522052455050553b4e3b3b3b3b3b4e4f3b303b6f533b574f5252412054534145204854524f4e3b37393132,
0x3b3b3b3b574f525241205448474952205245574f4c3b4e3b3b3b3b3b4e4f3b303b6f533b574f5252412054534145204854554f533b38393132,
0x3b3b3b3b574f525241205446454c205245574f4c3b4e3b3b3b3b3b4e4f3b303b6f533b574f5252412054534557204854554f533b39393132,
0x3b3b3b3b454b4f525453204854495720574f525241205446454c3b4e3b3b3b3b3833333020303931323b4e4f3b303b6d533b454b4f525453204854495720574f5252412053445241575446454c3b41393132,
0x3b3b3b3b454b4f525453204854495720574f5252412054484749523b4e3b3b3b3b3833333020323931323b4e4f3b303b6d533b454b4f525453204854495720574f52524120534452415754484749523b42393132,
0x3b3b3b3b574f5252412045564157205446454c3b4e3b3b3b3b3b4e4f3b303b6f533b574f52524120455641572053445241575446454c3b43393132,
0x3b3b3b3b574f52524120455641572054484749523b4e3b3b3b3b3b4e4f3b303b6f533b574f525241204556415720534452415754484749523b44393132,
0x3b3b3b3b574f52524120444544414548204f5754205446454c3b4e3b3b3b3b3b4e4f3b303b6f533b574f52524120444544414548204f57542053445241575446454c3b45393132,
0x3b3b3b3b574f52524120444544414548204f57542050553b4e3b3b3b3b3b4e4f3b303b6f533b574f52524120444544414548204f575420534452415750553b46393132,
0x3b3b3b3b574f52524120444544414548204f57542054484749523b4e3b3b3b3b3b4e4f3b303b6d533b574f52524120444544414548204f575420534452415754484749523b30413132,
0x3b3b3b3b574f52524120444544414548204f5754204e574f443b4e3b3b3b3b3b4e4f3b303b6f533b574f52524120444544414548204f57542053445241574e574f443b31413132,
0x3b3b3b3b4c494154204854495720574f525241205446454c3b4e3b3b3b3b3b4e4f3b303b6f533b4c494154204854495720574f5252412053445241575446454c3b32413132,
0x3b3b3b3b4c494154204854495720574f5252412054484749523b4e3b3b3b3b3b4e4f3b303b6d533b4c494154204854495720574f52524120534452415754484749523b33413132,
0x3b3b3b3b524142204d4f524620574f525241205446454c3b4e3b3b3b3b3b4e4f3b303b6f533b524142204d4f524620574f5252412053445241575446454c3b34413132,
0x3b3b3b3b524142204d4f524620574f5252412050553b4e3b3b3b3b3b4e4f3b303b6f533b524142204d4f524620574f52524120534452415750553b35413132,
0x3b3b3b3b524142204d4f524620574f5252412054484749523b4e3b3b3b3b3b4e4f3b303b6d533b524142204d4f524620574f52524120534452415754484749523b36413132,
0x3b3b3b3b524142204d4f524620574f525241204e574f443b4e3b3b3b3b3b4e4f3b303b6f533b524142204d4f524620574f5252412053445241574e574f443b37413132,
0x3b3b3b3b3b4e3b3b3b3b3b4e4f3b303b6f533b45534142204854495720574f525241204e574f442050553b38413132,
0x3b3b3b3b4b4f4f48204854495720574f525241205446454c3b4e3b3b3b3b3b4e4f3b303b6f533b4b4f4f48204854495720574f5252412053445241575446454c3b39413132,
0x3b3b3b3b4b4f4f48204854495720574f5252412054484749523b4e3b3b3b3b3b4e4f3b303b6f533b4b4f4f48204854495720574f52524120534452415754484749523b41413132,
0x3b3b3b3b504f4f4c204854495720574f525241205446454c3b4e3b3b3b3b3b4e4f3b303b6f533b504f4f4c204854495720574f5252412053445241575446454c3b42413132,
0x3b3b3b3b504f4f4c204854495720574f5252412054484749523b4e3b3b3b3b3b4e4f3b303b6f533b504f4f4c204854495720574f52524120534452415754484749523b43413132,
0x3b3b3b3b3b4e3b3b3b3b3b4e4f3b303b6f533b574f5252412045564157205448474952205446454c3b44413132,
0x3b3b3b3b3b4e3b3b3b3b3833333020343931323b4e4f3b303b6d533b454b4f525453204854495720574f525241205448474952205446454c3b45413132,
0x3b3b3b3b574f5252412047415a47495a204e574f443b4e3b3b3b3b3b4e4f3b303b6f533b574f5252412047415a47495a2053445241574e574f443b46413132,
0x3b3b3b3b5446454c20504954204854495720574f5252412050553b4e3b3b3b3b3b4e4f3b303b6f533b53445241575446454c20504954204854495720574f52524120534452415750553b30423132,
0x3b3b3b3b544847495220504954204854495720574f5252412050553b4e3b3b3b3b3b4e4f3b303b6f533b5344524157544847495220504954204854495720574f52524120534452415750553b31423132,
0x3b3b3b3b5446454c20504954204854495720574f525241204e574f443b4e3b3b3b3b3b4e4f3b303b6f533b53445241575446454c20504954204854495720574f5252412053445241574e574f443b32423132,
0x3b3b3b3b544847495220504954204854495720574f525241204e574f443b4e3b3b3b3b3b4e4f3b303b6f533b5344524157544847495220504954204854495720574f5252412053445241574e574f443b33423132,
0x3b3b3b3b4e574f442052454e524f43204854495720574f5252412054484749523b4e3b3b3b3b3b4e4f3b303b6f533b53445241574e574f442052454e524f43204854495720574f52524120534452415754484749523b34423132,
0x3b3b3b3b5446454c2052454e524f43204854495720574f525241204e574f443b4e3b3b3b3b3b4e4f3b303b6f533b53445241575446454c2052454e524f43204854495720574f5252412053445241574e574f443b35423132,
0x3b3b3b3b3b4e3b3b3b3b3b4e4f3b303b6f533b574f52524120454c43524943494d455320504f5420455349574b434f4c4349544e413b36423132,
0x3b3b3b3b3b4e3b3b3b3b3b4e4f3b303b6f533b574f52524120454c43524943494d455320504f5420455349574b434f4c433b37423132,
0x3b3b3b3b52414220474e4f4c204f5420574f525241205446454c2052455050553b4e3b3b3b3b3b4e4f3b303b6f533b52414220474e4f4c204f5420574f5252412054534557204854524f4e3b38423132,
0x3b3b3b3b524142204f5420574f525241205448474952205245564f20524142204f5420574f525241205446454c3b4e3b3b3b3b3b4e4f3b303b6f533b524142204f5420574f5252412053445241575448474952205245564f20524142204f5420574f5252412053445241575446454c3b39423132,
0x3b3b3b3b3b4e3b3b3b3b3b4e4f3b303b6f533b574f52524120454c43524943204e45504f20455349574b434f4c4349544e413b41423132,
0x3b3b3b3b3b4e3b3b3b3b3b4e4f3b303b6f533b574f52524120454c43524943204e45504f20455349574b434f4c433b42423132,
0x3b3b3b3b505520425241422048544957204e4f4f50524148205446454c3b4e3b3b3b3b3b4e4f3b303b6f533b5344524157505520425241422048544957204e4f4f505241482053445241575446454c3b43423132,
0x3b3b3b3b4e574f4420425241422048544957204e4f4f50524148205446454c3b4e3b3b3b3b3b4e4f3b303b6f533b53445241574e574f4420425241422048544957204e4f4f505241482053445241575446454c3b44423132,
0x3b3b3b3b544847495220425241422048544957204e4f4f505241482050553b4e3b3b3b3b3b4e4f3b303b6f533b5344524157544847495220425241422048544957204e4f4f5052414820534452415750553b45423132,
0x3b3b3b3b5446454c20425241422048544957204e4f4f505241482050553b4e3b3b3b3b3b4e4f3b303b6f533b53445241575446454c20425241422048544957204e4f4f5052414820534452415750553b46423132,
0x3b3b3b3b505520425241422048544957204e4f4f505241482054484749523b4e3b3b3b3b3b4e4f3b303b6f533b5344524157505520425241422048544957204e4f4f5052414820534452415754484749523b30433132,
0x3b3b3b3b4e574f4420425241422048544957204e4f4f505241482054484749523b4e3b3b3b3b3b4e4f3b303b6f533b53445241574e574f4420425241422048544957204e4f4f5052414820534452415754484749523b31433132,
0x3b3b3b3b544847495220425241422048544957204e4f4f50524148204e574f443b4e3b3b3b3b3b4e4f3b303b6f533b5344524157544847495220425241422048544957204e4f4f505241482053445241574e574f443b32433132,
0x3b3b3b3b5446454c20425241422048544957204e4f4f50524148204e574f443b4e3b3b3b3b3b4e4f3b303b6f533b53445241575446454c20425241422048544957204e4f4f505241482053445241574e574f443b33433132,
0x3b3b3b3b574f525241205446454c205245564f20574f5252412054484749523b4e3b3b3b3b3b4e4f3b303b6f533b574f5252412053445241575446454c205245564f20574f52524120534452415754484749523b34433132,
0x3b3b3b3b574f525241204e574f4420464f205446454c20574f5252412050553b4e3b3b3b3b3b4e4f3b303b6f533b574f5252412053445241574e574f4420464f2053445241575446454c20574f52524120534452415750553b35433132,
0x3b3b3b3b574f525241205448474952205245564f20574f525241205446454c3b4e3b3b3b3b3b4e4f3b303b6f533b574f5252412053445241575448474952205245564f20574f5252412053445241575446454c3b36433132,
0x3b3b3b3b53574f52524120444552494150205446454c3b4e3b3b3b3b3b4e4f3b303b6f533b53574f525241204445524941502053445241575446454c3b37433132,
0x3b3b3b3b53574f525241204445524941502050553b4e3b3b3b3b3b4e4f3b303b6f533b53574f5252412044455249415020534452415750553b38433132,
0x3b3b3b3b53574f525241204445524941502054484749523b4e3b3b3b3b3b4e4f3b303b6f533b53574f5252412044455249415020534452415754484749523b39433132,
0x3b3b3b3b53574f52524120444552494150204e574f443b4e3b3b3b3b3b4e4f3b303b6f533b53574f525241204445524941502053445241574e574f443b41433132,
0x3b3b3b3b4e4f4f50524148205448474952205245564f204e4f4f50524148205446454c3b4e3b3b3b3b3b4e4f3b303b6f533b4e4f4f505241482053445241575448474952205245564f204e4f4f505241482053445241575446454c3b42433132,
0x3b3b3b3b4e4f4f50524148205446454c205245564f204e4f4f505241482054484749523b4e3b3b3b3b3b4e4f3b303b6f533b4e4f4f505241482053445241575446454c205245564f204e4f4f5052414820534452415754484749523b43433132,
0x3b3b3b3b454b4f525453204854495720574f52524120454c42554f44205446454c3b4e3b3b3b3b3833333020304431323b4e4f3b303b6f533b454b4f525453204854495720574f52524120454c42554f442053445241575446454c3b44433132,
0x3b3b3b3b3b4e3b3b3b3b3833333020344431323b4e4f3b303b6d533b454b4f525453204854495720574f52524120454c42554f44205448474952205446454c3b45433132,
0x3b3b3b3b454b4f525453204854495720574f52524120454c42554f442054484749523b4e3b3b3b3b3833333020324431323b4e4f3b303b6d533b454b4f525453204854495720574f52524120454c42554f4420534452415754484749523b46433132,
0x3b3b3b3b574f52524120454c42554f44205446454c3b4e3b3b3b3b3b4e4f3b303b6f533b574f52524120454c42554f442053445241575446454c3b30443132,
0x3b3b3b3b574f52524120454c42554f442050553b4e3b3b3b3b3b4e4f3b303b6f533b574f52524120454c42554f4420534452415750553b31443132,
0x3b3b3b3b574f52524120454c42554f442054484749523b4e3b3b3b3b3b4e4f3b303b6d533b574f52524120454c42554f4420534452415754484749523b32443132,
0x3b3b3b3b574f52524120454c42554f44204e574f443b4e3b3b3b3b3b4e4f3b303b6f533b574f52524120454c42554f442053445241574e574f443b33443132,
0x3b3b3b3b3b4e3b3b3b3b3b4e4f3b303b6d533b574f52524120454c42554f44205448474952205446454c3b34443132,
0x3b3b3b3b3b4e3b3b3b3b3b4e4f3b303b6f533b574f52524120454c42554f44204e574f442050553b35443132,
0x3b3b3b3b574f52524120454c42554f44205446454c2052455050553b4e3b3b3b3b3b4e4f3b303b6f533b574f52524120454c42554f442054534557204854524f4e3b36443132,
0x3b3b3b3b574f52524120454c42554f442054484749522052455050553b4e3b3b3b3b3b4e4f3b303b6f533b574f52524120454c42554f442054534145204854524f4e3b37443132,
0x3b3b3b3b574f52524120454c42554f44205448474952205245574f4c3b4e3b3b3b3b3b4e4f3b303b6f533b574f52524120454c42554f442054534145204854554f533b38443132,
0x3b3b3b3b574f52524120454c42554f44205446454c205245574f4c3b4e3b3b3b3b3b4e4f3b303b6f533b574f52524120454c42554f442054534557204854554f533b39443132,
0x3b3b3b3b574f52524120454c50495254205446454c3b4e3b3b3b3b3b4e4f3b303b6f533b574f52524120454c504952542053445241575446454c3b41443132,
0x3b3b3b3b574f52524120454c504952542054484749523b4e3b3b3b3b3b4e4f3b303b6f533b574f52524120454c5049525420534452415754484749523b42443132,
0x3b3b3b3b574f52524120454c474749555153205446454c3b4e3b3b3b3b3b4e4f3b303b6f533b574f52524120454c4747495551532053445241575446454c3b43443132,
0x3b3b3b3b574f52524120454c4747495551532054484749523b4e3b3b3b3b3b4e4f3b303b6f533b574f52524120454c47474955515320534452415754484749523b44443132,
0x3b3b3b3b454b4f52545320454c42554f44204854495720574f5252412050553b4e3b3b3b3b3b4e4f3b303b6f533b454b4f52545320454c42554f44204854495720574f52524120534452415750553b45443132,
0x3b3b3b3b454b4f52545320454c42554f44204854495720574f525241204e574f443b4e3b3b3b3b3b4e4f3b303b6f533b454b4f52545320454c42554f44204854495720574f5252412053445241574e574f443b46443132,
0x3b3b3b3b574f52524120444548534144205446454c3b4e3b3b3b3b3b4e4f3b303b6f533b574f525241204445485341442053445241575446454c3b30453132,
0x3b3b3b3b574f525241204445485341442050553b4e3b3b3b3b3b4e4f3b303b6f533b574f5252412044454853414420534452415750553b31453132,
0x3b3b3b3b574f525241204445485341442054484749523b4e3b3b3b3b3b4e4f3b303b6f533b574f5252412044454853414420534452415754484749523b32453132,
0x3b3b3b3b574f52524120444548534144204e574f443b4e3b3b3b3b3b4e4f3b303b6f533b574f525241204445485341442053445241574e574f443b33453132,
0x3b3b3b3b524142204f5420574f525241205446454c3b4e3b3b3b3b3b4e4f3b303b6f533b524142204f5420574f5252412053445241575446454c3b34453132,
0x3b3b3b3b524142204f5420574f5252412054484749523b4e3b3b3b3b3b4e4f3b303b6f533b524142204f5420574f52524120534452415754484749523b35453132,
0x3b3b3b3b574f525241205446454c2045544948573b4e3b3b3b3b3b4e4f3b303b6f533b574f5252412045544948572053445241575446454c3b36453132,
0x3b3b3b3b574f5252412050552045544948573b4e3b3b3b3b3b4e4f3b303b6f533b574f52524120455449485720534452415750553b37453132,
0x3b3b3b3b574f5252412054484749522045544948573b4e3b3b3b3b3b4e4f3b303b6f533b574f52524120455449485720534452415754484749523b38453132,
0x3b3b3b3b574f525241204e574f442045544948573b4e3b3b3b3b3b4e4f3b303b6f533b574f5252412045544948572053445241574e574f443b39453132,
0x3b3b3b3b524142204d4f524620574f5252412050552045544948573b4e3b3b3b3b3b4e4f3b303b6f533b524142204d4f524620574f52524120455449485720534452415750553b41453132,
0x3b3b3b3b3b4e3b3b3b3b3b4e4f3b303b6f533b4c41545345444550204e4f20574f52524120455449485720534452415750553b42453132,
0x3b3b3b3b3b4e3b3b3b3b3b4e4f3b303b6f533b524142204c41544e4f5a49524f482048544957204c41545345444550204e4f20574f52524120455449485720534452415750553b43453132,
0x3b3b3b3b3b4e3b3b3b3b3b4e4f3b303b6f533b524142204c414349545245562048544957204c41545345444550204e4f20574f52524120455449485720534452415750553b44453132,
0x3b3b3b3b3b4e3b3b3b3b3b4e4f3b303b6f533b574f52524120454c42554f4420455449485720534452415750553b45453132,
0x3b3b3b3b3b4e3b3b3b3b3b4e4f3b303b6f533b4c41545345444550204e4f20574f52524120454c42554f4420455449485720534452415750553b46453132,
0x3b3b3b3b3b4e3b3b3b3b3b4e4f3b303b6f533b4c4c4157204d4f524620574f52524120455449485720534452415754484749523b30463132,
0x3b3b3b3b3b4e3b3b3b3b3b4e4f3b303b6f533b52454e524f43204f5420574f5252412054534557204854524f4e3b31463132,
0x3b3b3b3b3b4e3b3b3b3b3b4e4f3b303b6f533b52454e524f43204f5420574f5252412054534145204854554f533b32463132,
0x3b3b3b3b3b4e3b3b3b3b3b4e4f3b303b6f533b574f525241204554494857204e574f442050553b33463132,
0x3b3b3b3b3b4e3b3b3b3b3b4e4f3b303b6d533b454c43524943204c4c414d53204854495720574f5252412054484749523b34463132,
0x3b3b3b3b3b4e3b3b3b3b3b4e4f3b303b6d533b574f525241205344524157505520464f2053445241575446454c20574f5252412053445241574e574f443b35463132,
0x3b3b3b3b3b4e3b3b3b3b3b4e4f3b303b6d533b53574f52524120534452415754484749522045455248543b36463132,
0x3b3b3b3b3b4e3b3b3b3b3b4e4f3b303b6d533b454b4f525453204c41434954524556204854495720574f5252412053445241575446454c3b37463132,
0x3b3b3b3b3b4e3b3b3b3b3b4e4f3b303b6d533b454b4f525453204c41434954524556204854495720574f52524120534452415754484749523b38463132,
0x3b3b3b3b3b4e3b3b3b3b3b4e4f3b303b6d533b454b4f525453204c41434954524556204854495720574f525241205448474952205446454c3b39463132,
0x3b3b3b3b3b4e3b3b3b3b3b4e4f3b303b6d533b454b4f525453204c4143495452455620454c42554f44204854495720574f5252412053445241575446454c3b41463132,
0x3b3b3b3b3b4e3b3b3b3b3b4e4f3b303b6d533b454b4f525453204c4143495452455620454c42554f44204854495720574f52524120534452415754484749523b42463132,
0x3b3b3b3b3b4e3b3b3b3b3b4e4f3b303b6d533b454b4f525453204c4143495452455620454c42554f44204854495720574f525241205448474952205446454c3b43463132,
0x3b3b3b3b3b4e3b3b3b3b3b4e4f3b303b6d533b574f525241204445444145482d4e45504f2053445241575446454c3b44463132,
0x3b3b3b3b3b4e3b3b3b3b3b4e4f3b303b6d533b574f525241204445444145482d4e45504f20534452415754484749523b45463132,
0x3b3b3b3b3b4e3b3b3b3b3b4e4f3b303b6d533b574f525241204445444145482d4e45504f205448474952205446454c3b46463132,
0x3b3b3b3b3b4e3b3b3b3b3b4e4f3b303b6d533b4c4c4120524f463b30303232,
0x3b3b3b3b3b593b3b3b3b3b4e4f3b303b6d533b544e454d454c504d4f433b31303232,
0x3b3b3b3b3b593b3b3b3b3b4e4f3b303b6d533b4c4149544e45524546464944204c4149545241503b32303232,
0x3b3b3b3b3b593b3b3b3b3b4e4f3b303b6d533b5354534958452045524548543b33303232,
0x3b3b3b3b3b593b3b3b3b3833333020333032323b4e4f3b303b6d533b545349584520544f4e2053454f442045524548543b34303232,
0x3b3b3b3b3b4e3b3b3b3b3b4e4f3b303b6d533b544553205954504d453b35303232,
0x3b3b3b3b3b4e3b3b3b3b3b4e4f3b303b6d533b544e454d4552434e493b36303232,
0x3b3b3b3b3b4e3b3b3b3b3b4e4f3b303b6d533b414c42414e3b37303232,
0x3b3b3b3b3b593b3b3b3b3b4e4f3b303b6d533b464f20544e454d454c453b38303232,
0x3b3b3b3b3b593b3b3b3b3833333020383032323b4e4f3b303b6d533b464f20544e454d454c45204e4120544f4e3b39303232,
0x3b3b3b3b3b593b3b3b3b3b4e4f3b303b6d533b464f20544e454d454c45204c4c414d533b41303232,
0x3b3b3b3b3b593b3b3b3b3b4e4f3b303b6d533b5245424d454d20534120534e4941544e4f433b42303232,
0x3b3b3b3b3b593b3b3b3b3833333020423032323b4e4f3b303b6d533b5245424d454d205341204e4941544e4f4320544f4e2053454f443b43303232,
0x3b3b3b3b3b593b3b3b3b3b4e4f3b303b6d533b5245424d454d20534120534e4941544e4f43204c4c414d533b44303232,
0x3b3b3b3b3b4e3b3b3b3b3b4e4f3b303b6d533b464f4f525020464f20444e453b45303232,
0x3b3b3b3b3b4e3b3b3b3b3b4e4f3b303b6d533b544355444f5250205952412d4e3b46303232,
0x3b3b3b3b3b4e3b3b3b3b3b4e4f3b303b6d533b544355444f52504f43205952412d4e3b30313232,
0x3b3b3b3b3b593b3b3b3b3b4e4f3b303b6d533b4e4f4954414d4d5553205952412d4e3b31313232,
0x3b3b3b3b3b4e3b3b3b3b3b53453b303b6d533b4e4749532053554e494d3b32313232,
0x3b3b3b3b3b4e3b3b3b3b3b54453b303b6d533b4e4749532053554c502d524f2d53554e494d3b33313232,
0x3b3b3b3b3b4e3b3b3b3b3b4e4f3b303b6d533b53554c5020544f443b34313232,
0x3b3b3b3b3b593b3b3b3b3b4e4f3b303b6d533b4853414c53204e4f4953495649443b35313232,
0x3b3b3b3b3b593b3b3b3b3b4e4f3b303b6d533b53554e494d205445533b36313232,
0x3b3b3b3b3b4e3b3b3b3b3b4e4f3b303b6d533b524f54415245504f204b534952455453413b37313232,
0x3b3b3b3b3b4e3b3b3b3b3b4e4f3b303b6d533b524f54415245504f20474e49523b38313232,
0x3b3b3b3b3b4e3b3b3b3b3b4e4f3b303b6d533b524f54415245504f2054454c4c55423b39313232,
0x3b3b3b3b3b593b3b3b3b3b4e4f3b303b6d533b544f4f52204552415551533b41313232,
0x3b3b3b3b3b593b3b3b3b3b4e4f3b303b6d533b544f4f5220454255433b42313232,
0x3b3b3b3b3b593b3b3b3b3b4e4f3b303b6d533b544f4f5220485452554f463b43313232,
0x3b3b3b3b3b593b3b3b3b3b4e4f3b303b6d533b4f54204c414e4f4954524f504f52503b44313232,
0x3b3b3b3b3b4e3b3b3b3b3b4e4f3b303b6d533b5954494e49464e493b45313232,
0x3b3b3b3b3b593b3b3b3b3b4e4f3b303b6d533b454c474e412054484749523b46313232,
0x3b3b3b3b3b593b3b3b3b3b4e4f3b303b6d533b454c474e413b30323232,
0x3b3b3b3b3b593b3b3b3b3b4e4f3b303b6d533b454c474e4120444552555341454d3b31323232,
0x3b3b3b3b3b593b3b3b3b3b4e4f3b303b6d533b454c474e41204c41434952454850533b32323232,
0x3b3b3b3b3b4e3b3b3b3b3b4e4f3b303b6d533b534544495649443b33323232,
0x3b3b3b3b3b593b3b3b3b3833333020333232323b4e4f3b303b6d533b45444956494420544f4e2053454f443b34323232,
0x3b3b3b3b3b4e3b3b3b3b3b4e4f3b303b6d533b4f54204c454c4c415241503b35323232,
0x3b3b3b3b3b593b3b3b3b3833333020353232323b4e4f3b303b6d533b4f54204c454c4c4152415020544f4e3b36323232,
0x3b3b3b3b3b4e3b3b3b3b3b4e4f3b303b6d533b444e41204c414349474f4c3b37323232,
0x3b3b3b3b3b4e3b3b3b3b3b4e4f3b303b6d533b524f204c414349474f4c3b38323232,
0x3b3b3b3b3b4e3b3b3b3b3b4e4f3b303b6d533b4e4f49544345535245544e493b39323232,
0x3b3b3b3b3b4e3b3b3b3b3b4e4f3b303b6d533b4e4f494e553b41323232,
0x3b3b3b3b3b593b3b3b3b3b4e4f3b303b6d533b4c41524745544e493b42323232,
0x3b3b3b3b3b593b3b3b3b423232322042323232203e7461706d6f633c3b4e4f3b303b6d533b4c41524745544e4920454c42554f443b43323232,
0x3b3b3b3b3b593b3b3b3b4232323220423232322042323232203e7461706d6f633c3b4e4f3b303b6d533b4c41524745544e4920454c504952543b44323232,
0x3b3b3b3b3b593b3b3b3b3b4e4f3b303b6d533b4c41524745544e492052554f544e4f433b45323232,
0x3b3b3b3b3b593b3b3b3b453232322045323232203e7461706d6f633c3b4e4f3b303b6d533b4c41524745544e4920454341465255533b46323232,
0x3b3b3b3b3b593b3b3b3b4532323220453232322045323232203e7461706d6f633c3b4e4f3b303b6d533b4c41524745544e4920454d554c4f563b30333232,
0x3b3b3b3b3b593b3b3b3b3b4e4f3b303b6d533b4c41524745544e4920455349574b434f4c433b31333232,
0x3b3b3b3b3b593b3b3b3b3b4e4f3b303b6d533b4c41524745544e492052554f544e4f4320455349574b434f4c433b32333232,
0x3b3b3b3b3b593b3b3b3b3b4e4f3b303b6d533b4c41524745544e492052554f544e4f4320455349574b434f4c4349544e413b33333232,
0x3b3b3b3b3b4e3b3b3b3b3b4e4f3b303b6d533b45524f4645524548543b34333232,
0x3b3b3b3b3b4e3b3b3b3b3b4e4f3b303b6d533b455355414345423b35333232]

end U5e.Data
