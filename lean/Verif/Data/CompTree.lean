import Verif.Proofs.Tree
set_option maxRecDepth 10000
/-! GENERATED by tools/gen_trees.py: the rows of Data/Comp.lean as a search tree (proof aid). -/
namespace U5e.Data
open U5e

/-- Rows of Data/Comp.lean (proof aid). -/
def compT0 : Tree (List Nat) := (.node (.node (.node (.node (.node (.node .leaf [60, 824, 8814] .leaf) [61, 824, 8800] (.node .leaf [62, 824, 8815] .leaf)) [65, 768, 192] (.node (.node .leaf [65, 769, 193] .leaf) [65, 770, 194] (.node .leaf [65, 771, 195] .leaf))) [65, 772, 256] (.node (.node (.node .leaf [65, 774, 258] .leaf) [65, 775, 550] (.node .leaf [65, 776, 196] .leaf)) [65, 777, 7842] (.node (.node .leaf [65, 778, 197] .leaf) [65, 780, 461] .leaf))) [65, 783, 512] (.node (.node (.node (.node .leaf [65, 785, 514] .leaf) [65, 803, 7840] (.node .leaf [65, 805, 7680] .leaf)) [65, 808, 260] (.node (.node .leaf [66, 775, 7682] .leaf) [66, 803, 7684] (.node .leaf [66, 817, 7686] .leaf))) [67, 769, 262] (.node (.node (.node .leaf [67, 770, 264] .leaf) [67, 775, 266] (.node .leaf [67, 780, 268] .leaf)) [67, 807, 199] (.node (.node .leaf [68, 775, 7690] .leaf) [68, 780, 270] .leaf)))) [68, 803, 7692] (.node (.node (.node (.node (.node .leaf [68, 807, 7696] .leaf) [68, 813, 7698] (.node .leaf [68, 817, 7694] .leaf)) [69, 768, 200] (.node (.node .leaf [69, 769, 201] .leaf) [69, 770, 202] (.node .leaf [69, 771, 7868] .leaf))) [69, 772, 274] (.node (.node (.node .leaf [69, 774, 276] .leaf) [69, 775, 278] (.node .leaf [69, 776, 203] .leaf)) [69, 777, 7866] (.node (.node .leaf [69, 780, 282] .leaf) [69, 783, 516] .leaf))) [69, 785, 518] (.node (.node (.node (.node .leaf [69, 803, 7864] .leaf) [69, 807, 552] (.node .leaf [69, 808, 280] .leaf)) [69, 813, 7704] (.node (.node .leaf [69, 816, 7706] .leaf) [70, 775, 7710] .leaf)) [71, 769, 500] (.node (.node (.node .leaf [71, 770, 284] .leaf) [71, 772, 7712] (.node .leaf [71, 774, 286] .leaf)) [71, 775, 288] (.node (.node .leaf [71, 780, 486] .leaf) [71, 807, 290] .leaf)))))

/-- Rows of Data/Comp.lean (proof aid). -/
def compT1 : Tree (List Nat) := (.node (.node (.node (.node (.node (.node .leaf [72, 775, 7714] .leaf) [72, 776, 7718] (.node .leaf [72, 780, 542] .leaf)) [72, 803, 7716] (.node (.node .leaf [72, 807, 7720] .leaf) [72, 814, 7722] (.node .leaf [73, 768, 204] .leaf))) [73, 769, 205] (.node (.node (.node .leaf [73, 770, 206] .leaf) [73, 771, 296] (.node .leaf [73, 772, 298] .leaf)) [73, 774, 300] (.node (.node .leaf [73, 775, 304] .leaf) [73, 776, 207] .leaf))) [73, 777, 7880] (.node (.node (.node (.node .leaf [73, 780, 463] .leaf) [73, 783, 520] (.node .leaf [73, 785, 522] .leaf)) [73, 803, 7882] (.node (.node .leaf [73, 808, 302] .leaf) [73, 816, 7724] (.node .leaf [74, 770, 308] .leaf))) [75, 769, 7728] (.node (.node (.node .leaf [75, 780, 488] .leaf) [75, 803, 7730] (.node .leaf [75, 807, 310] .leaf)) [75, 817, 7732] (.node (.node .leaf [76, 769, 313] .leaf) [76, 780, 317] .leaf)))) [76, 803, 7734] (.node (.node (.node (.node (.node .leaf [76, 807, 315] .leaf) [76, 813, 7740] (.node .leaf [76, 817, 7738] .leaf)) [77, 769, 7742] (.node (.node .leaf [77, 775, 7744] .leaf) [77, 803, 7746] (.node .leaf [78, 768, 504] .leaf))) [78, 769, 323] (.node (.node (.node .leaf [78, 771, 209] .leaf) [78, 775, 7748] (.node .leaf [78, 780, 327] .leaf)) [78, 803, 7750] (.node (.node .leaf [78, 807, 325] .leaf) [78, 813, 7754] .leaf))) [78, 817, 7752] (.node (.node (.node (.node .leaf [79, 768, 210] .leaf) [79, 769, 211] (.node .leaf [79, 770, 212] .leaf)) [79, 771, 213] (.node (.node .leaf [79, 772, 332] .leaf) [79, 774, 334] .leaf)) [79, 775, 558] (.node (.node (.node .leaf [79, 776, 214] .leaf) [79, 777, 7886] (.node .leaf [79, 779, 336] .leaf)) [79, 780, 465] (.node (.node .leaf [79, 783, 524] .leaf) [79, 785, 526] .leaf)))))

/-- Rows of Data/Comp.lean (proof aid). -/
def compT2 : Tree (List Nat) := (.node (.node (.node (.node (.node (.node .leaf [79, 803, 7884] .leaf) [79, 808, 490] (.node .leaf [80, 769, 7764] .leaf)) [80, 775, 7766] (.node (.node .leaf [82, 769, 340] .leaf) [82, 775, 7768] (.node .leaf [82, 780, 344] .leaf))) [82, 783, 528] (.node (.node (.node .leaf [82, 785, 530] .leaf) [82, 803, 7770] (.node .leaf [82, 807, 342] .leaf)) [82, 817, 7774] (.node (.node .leaf [83, 769, 346] .leaf) [83, 770, 348] .leaf))) [83, 775, 7776] (.node (.node (.node (.node .leaf [83, 780, 352] .leaf) [83, 803, 7778] (.node .leaf [83, 806, 536] .leaf)) [83, 807, 350] (.node (.node .leaf [84, 775, 7786] .leaf) [84, 780, 356] (.node .leaf [84, 803, 7788] .leaf))) [84, 806, 538] (.node (.node (.node .leaf [84, 807, 354] .leaf) [84, 813, 7792] (.node .leaf [84, 817, 7790] .leaf)) [85, 768, 217] (.node (.node .leaf [85, 769, 218] .leaf) [85, 770, 219] .leaf)))) [85, 771, 360] (.node (.node (.node (.node (.node .leaf [85, 772, 362] .leaf) [85, 774, 364] (.node .leaf [85, 776, 220] .leaf)) [85, 777, 7910] (.node (.node .leaf [85, 778, 366] .leaf) [85, 779, 368] (.node .leaf [85, 780, 467] .leaf))) [85, 783, 532] (.node (.node (.node .leaf [85, 785, 534] .leaf) [85, 795, 431] (.node .leaf [85, 803, 7908] .leaf)) [85, 804, 7794] (.node (.node .leaf [85, 808, 370] .leaf) [85, 813, 7798] .leaf))) [85, 816, 7796] (.node (.node (.node (.node .leaf [86, 771, 7804] .leaf) [86, 803, 7806] (.node .leaf [87, 768, 7808] .leaf)) [87, 769, 7810] (.node (.node .leaf [87, 770, 372] .leaf) [87, 775, 7814] .leaf)) [87, 776, 7812] (.node (.node (.node .leaf [87, 803, 7816] .leaf) [88, 775, 7818] (.node .leaf [88, 776, 7820] .leaf)) [89, 768, 7922] (.node (.node .leaf [89, 769, 221] .leaf) [89, 770, 374] .leaf)))))

/-- Rows of Data/Comp.lean (proof aid). -/
def compT3 : Tree (List Nat) := (.node (.node (.node (.node (.node (.node .leaf [89, 772, 562] .leaf) [89, 775, 7822] (.node .leaf [89, 776, 376] .leaf)) [89, 777, 7926] (.node (.node .leaf [89, 803, 7924] .leaf) [90, 769, 377] (.node .leaf [90, 770, 7824] .leaf))) [90, 775, 379] (.node (.node (.node .leaf [90, 780, 381] .leaf) [90, 803, 7826] (.node .leaf [90, 817, 7828] .leaf)) [97, 768, 224] (.node (.node .leaf [97, 769, 225] .leaf) [97, 770, 226] .leaf))) [97, 771, 227] (.node (.node (.node (.node .leaf [97, 772, 257] .leaf) [97, 774, 259] (.node .leaf [97, 775, 551] .leaf)) [97, 776, 228] (.node (.node .leaf [97, 777, 7843] .leaf) [97, 778, 229] (.node .leaf [97, 780, 462] .leaf))) [97, 783, 513] (.node (.node (.node .leaf [97, 785, 515] .leaf) [97, 803, 7841] (.node .leaf [97, 805, 7681] .leaf)) [97, 808, 261] (.node (.node .leaf [98, 775, 7683] .leaf) [98, 803, 7685] .leaf)))) [98, 817, 7687] (.node (.node (.node (.node (.node .leaf [99, 769, 263] .leaf) [99, 770, 265] (.node .leaf [99, 775, 267] .leaf)) [99, 780, 269] (.node (.node .leaf [99, 807, 231] .leaf) [100, 775, 7691] (.node .leaf [100, 780, 271] .leaf))) [100, 803, 7693] (.node (.node (.node .leaf [100, 807, 7697] .leaf) [100, 813, 7699] (.node .leaf [100, 817, 7695] .leaf)) [101, 768, 232] (.node (.node .leaf [101, 769, 233] .leaf) [101, 770, 234] .leaf))) [101, 771, 7869] (.node (.node (.node (.node .leaf [101, 772, 275] .leaf) [101, 774, 277] (.node .leaf [101, 775, 279] .leaf)) [101, 776, 235] (.node (.node .leaf [101, 777, 7867] .leaf) [101, 780, 283] .leaf)) [101, 783, 517] (.node (.node (.node .leaf [101, 785, 519] .leaf) [101, 803, 7865] (.node .leaf [101, 807, 553] .leaf)) [101, 808, 281] (.node (.node .leaf [101, 813, 7705] .leaf) [101, 816, 7707] .leaf)))))

/-- Rows of Data/Comp.lean (proof aid). -/
def compT4 : Tree (List Nat) := (.node (.node (.node (.node (.node (.node .leaf [103, 769, 501] .leaf) [103, 770, 285] (.node .leaf [103, 772, 7713] .leaf)) [103, 774, 287] (.node (.node .leaf [103, 775, 289] .leaf) [103, 780, 487] (.node .leaf [103, 807, 291] .leaf))) [104, 770, 293] (.node (.node (.node .leaf [104, 775, 7715] .leaf) [104, 776, 7719] (.node .leaf [104, 780, 543] .leaf)) [104, 803, 7717] (.node (.node .leaf [104, 807, 7721] .leaf) [104, 814, 7723] .leaf))) [104, 817, 7830] (.node (.node (.node (.node .leaf [105, 768, 236] .leaf) [105, 769, 237] (.node .leaf [105, 770, 238] .leaf)) [105, 771, 297] (.node (.node .leaf [105, 772, 299] .leaf) [105, 774, 301] (.node .leaf [105, 776, 239] .leaf))) [105, 777, 7881] (.node (.node (.node .leaf [105, 780, 464] .leaf) [105, 783, 521] (.node .leaf [105, 785, 523] .leaf)) [105, 803, 7883] (.node (.node .leaf [105, 808, 303] .leaf) [105, 816, 7725] .leaf)))) [106, 770, 309] (.node (.node (.node (.node (.node .leaf [106, 780, 496] .leaf) [107, 769, 7729] (.node .leaf [107, 780, 489] .leaf)) [107, 803, 7731] (.node (.node .leaf [107, 807, 311] .leaf) [107, 817, 7733] (.node .leaf [108, 769, 314] .leaf))) [108, 780, 318] (.node (.node (.node .leaf [108, 803, 7735] .leaf) [108, 807, 316] (.node .leaf [108, 813, 7741] .leaf)) [108, 817, 7739] (.node (.node .leaf [109, 769, 7743] .leaf) [109, 775, 7745] .leaf))) [109, 803, 7747] (.node (.node (.node (.node .leaf [110, 768, 505] .leaf) [110, 769, 324] (.node .leaf [110, 771, 241] .leaf)) [110, 775, 7749] (.node (.node .leaf [110, 780, 328] .leaf) [110, 803, 7751] .leaf)) [110, 807, 326] (.node (.node (.node .leaf [110, 813, 7755] .leaf) [110, 817, 7753] (.node .leaf [111, 768, 242] .leaf)) [111, 769, 243] (.node (.node .leaf [111, 770, 244] .leaf) [111, 771, 245] .leaf)))))

/-- Rows of Data/Comp.lean (proof aid). -/
def compT5 : Tree (List Nat) := (.node (.node (.node (.node (.node (.node .leaf [111, 774, 335] .leaf) [111, 775, 559] (.node .leaf [111, 776, 246] .leaf)) [111, 777, 7887] (.node (.node .leaf [111, 779, 337] .leaf) [111, 780, 466] (.node .leaf [111, 783, 525] .leaf))) [111, 785, 527] (.node (.node (.node .leaf [111, 795, 417] .leaf) [111, 803, 7885] (.node .leaf [111, 808, 491] .leaf)) [112, 769, 7765] (.node (.node .leaf [112, 775, 7767] .leaf) [114, 769, 341] .leaf))) [114, 775, 7769] (.node (.node (.node (.node .leaf [114, 780, 345] .leaf) [114, 783, 529] (.node .leaf [114, 785, 531] .leaf)) [114, 803, 7771] (.node (.node .leaf [114, 807, 343] .leaf) [114, 817, 7775] (.node .leaf [115, 769, 347] .leaf))) [115, 770, 349] (.node (.node (.node .leaf [115, 775, 7777] .leaf) [115, 780, 353] (.node .leaf [115, 803, 7779] .leaf)) [115, 806, 537] (.node (.node .leaf [115, 807, 351] .leaf) [116, 775, 7787] .leaf)))) [116, 776, 7831] (.node (.node (.node (.node (.node .leaf [116, 780, 357] .leaf) [116, 803, 7789] (.node .leaf [116, 806, 539] .leaf)) [116, 807, 355] (.node (.node .leaf [116, 813, 7793] .leaf) [116, 817, 7791] (.node .leaf [117, 768, 249] .leaf))) [117, 769, 250] (.node (.node (.node .leaf [117, 770, 251] .leaf) [117, 771, 361] (.node .leaf [117, 772, 363] .leaf)) [117, 774, 365] (.node (.node .leaf [117, 776, 252] .leaf) [117, 777, 7911] .leaf))) [117, 778, 367] (.node (.node (.node (.node .leaf [117, 779, 369] .leaf) [117, 780, 468] (.node .leaf [117, 783, 533] .leaf)) [117, 785, 535] (.node (.node .leaf [117, 795, 432] .leaf) [117, 803, 7909] .leaf)) [117, 804, 7795] (.node (.node (.node .leaf [117, 808, 371] .leaf) [117, 813, 7799] (.node .leaf [117, 816, 7797] .leaf)) [118, 771, 7805] (.node (.node .leaf [118, 803, 7807] .leaf) [119, 768, 7809] .leaf)))))

/-- Rows of Data/Comp.lean (proof aid). -/
def compT6 : Tree (List Nat) := (.node (.node (.node (.node (.node (.node .leaf [119, 770, 373] .leaf) [119, 775, 7815] (.node .leaf [119, 776, 7813] .leaf)) [119, 778, 7832] (.node (.node .leaf [119, 803, 7817] .leaf) [120, 775, 7819] (.node .leaf [120, 776, 7821] .leaf))) [121, 768, 7923] (.node (.node (.node .leaf [121, 769, 253] .leaf) [121, 770, 375] (.node .leaf [121, 771, 7929] .leaf)) [121, 772, 563] (.node (.node .leaf [121, 775, 7823] .leaf) [121, 776, 255] .leaf))) [121, 777, 7927] (.node (.node (.node (.node .leaf [121, 778, 7833] .leaf) [121, 803, 7925] (.node .leaf [122, 769, 378] .leaf)) [122, 770, 7825] (.node (.node .leaf [122, 775, 380] .leaf) [122, 780, 382] (.node .leaf [122, 803, 7827] .leaf))) [122, 817, 7829] (.node (.node (.node .leaf [168, 768, 8173] .leaf) [168, 769, 901] (.node .leaf [168, 834, 8129] .leaf)) [194, 768, 7846] (.node (.node .leaf [194, 769, 7844] .leaf) [194, 771, 7850] .leaf)))) [194, 777, 7848] (.node (.node (.node (.node (.node .leaf [196, 772, 478] .leaf) [197, 769, 506] (.node .leaf [198, 769, 508] .leaf)) [198, 772, 482] (.node (.node .leaf [199, 769, 7688] .leaf) [202, 768, 7872] (.node .leaf [202, 769, 7870] .leaf))) [202, 771, 7876] (.node (.node (.node .leaf [202, 777, 7874] .leaf) [207, 769, 7726] (.node .leaf [212, 768, 7890] .leaf)) [212, 769, 7888] (.node (.node .leaf [212, 771, 7894] .leaf) [212, 777, 7892] .leaf))) [213, 769, 7756] (.node (.node (.node (.node .leaf [213, 772, 556] .leaf) [213, 776, 7758] (.node .leaf [214, 772, 554] .leaf)) [216, 769, 510] (.node (.node .leaf [220, 768, 475] .leaf) [220, 769, 471] .leaf)) [220, 772, 469] (.node (.node (.node .leaf [220, 780, 473] .leaf) [226, 768, 7847] (.node .leaf [226, 769, 7845] .leaf)) [226, 771, 7851] (.node (.node .leaf [226, 777, 7849] .leaf) [228, 772, 479] .leaf)))))

/-- Rows of Data/Comp.lean (proof aid). -/
def compT7 : Tree (List Nat) := (.node (.node (.node (.node (.node (.node .leaf [230, 769, 509] .leaf) [230, 772, 483] (.node .leaf [231, 769, 7689] .leaf)) [234, 768, 7873] (.node (.node .leaf [234, 769, 7871] .leaf) [234, 771, 7877] (.node .leaf [234, 777, 7875] .leaf))) [239, 769, 7727] (.node (.node (.node .leaf [244, 768, 7891] .leaf) [244, 769, 7889] (.node .leaf [244, 771, 7895] .leaf)) [244, 777, 7893] (.node (.node .leaf [245, 769, 7757] .leaf) [245, 772, 557] .leaf))) [245, 776, 7759] (.node (.node (.node (.node .leaf [246, 772, 555] .leaf) [248, 769, 511] (.node .leaf [252, 768, 476] .leaf)) [252, 769, 472] (.node (.node .leaf [252, 772, 470] .leaf) [252, 780, 474] .leaf)) [258, 768, 7856] (.node (.node (.node .leaf [258, 769, 7854] .leaf) [258, 771, 7860] (.node .leaf [258, 777, 7858] .leaf)) [259, 768, 7857] (.node (.node .leaf [259, 769, 7855] .leaf) [259, 771, 7861] .leaf)))) [259, 777, 7859] (.node (.node (.node (.node (.node .leaf [274, 768, 7700] .leaf) [274, 769, 7702] (.node .leaf [275, 768, 7701] .leaf)) [275, 769, 7703] (.node (.node .leaf [332, 768, 7760] .leaf) [332, 769, 7762] (.node .leaf [333, 768, 7761] .leaf))) [333, 769, 7763] (.node (.node (.node .leaf [346, 775, 7780] .leaf) [347, 775, 7781] (.node .leaf [352, 775, 7782] .leaf)) [353, 775, 7783] (.node (.node .leaf [360, 769, 7800] .leaf) [361, 769, 7801] .leaf))) [362, 776, 7802] (.node (.node (.node (.node .leaf [363, 776, 7803] .leaf) [383, 775, 7835] (.node .leaf [416, 768, 7900] .leaf)) [416, 769, 7898] (.node (.node .leaf [416, 771, 7904] .leaf) [416, 777, 7902] .leaf)) [416, 803, 7906] (.node (.node (.node .leaf [417, 768, 7901] .leaf) [417, 769, 7899] (.node .leaf [417, 771, 7905] .leaf)) [417, 777, 7903] (.node (.node .leaf [417, 803, 7907] .leaf) [431, 768, 7914] .leaf)))))

/-- Rows of Data/Comp.lean (proof aid). -/
def compT8 : Tree (List Nat) := (.node (.node (.node (.node (.node (.node .leaf [431, 771, 7918] .leaf) [431, 777, 7916] (.node .leaf [431, 803, 7920] .leaf)) [432, 768, 7915] (.node (.node .leaf [432, 769, 7913] .leaf) [432, 771, 7919] (.node .leaf [432, 777, 7917] .leaf))) [432, 803, 7921] (.node (.node (.node .leaf [439, 780, 494] .leaf) [490, 772, 492] (.node .leaf [491, 772, 493] .leaf)) [550, 772, 480] (.node (.node .leaf [551, 772, 481] .leaf) [552, 774, 7708] .leaf))) [553, 774, 7709] (.node (.node (.node (.node .leaf [558, 772, 560] .leaf) [559, 772, 561] (.node .leaf [658, 780, 495] .leaf)) [913, 768, 8122] (.node (.node .leaf [913, 769, 902] .leaf) [913, 772, 8121] (.node .leaf [913, 774, 8120] .leaf))) [913, 787, 7944] (.node (.node (.node .leaf [913, 788, 7945] .leaf) [913, 837, 8124] (.node .leaf [917, 768, 8136] .leaf)) [917, 769, 904] (.node (.node .leaf [917, 787, 7960] .leaf) [917, 788, 7961] .leaf)))) [919, 768, 8138] (.node (.node (.node (.node (.node .leaf [919, 769, 905] .leaf) [919, 787, 7976] (.node .leaf [919, 788, 7977] .leaf)) [919, 837, 8140] (.node (.node .leaf [921, 768, 8154] .leaf) [921, 769, 906] (.node .leaf [921, 772, 8153] .leaf))) [921, 774, 8152] (.node (.node (.node .leaf [921, 776, 938] .leaf) [921, 787, 7992] (.node .leaf [921, 788, 7993] .leaf)) [927, 768, 8184] (.node (.node .leaf [927, 769, 908] .leaf) [927, 787, 8008] .leaf))) [927, 788, 8009] (.node (.node (.node (.node .leaf [929, 788, 8172] .leaf) [933, 768, 8170] (.node .leaf [933, 769, 910] .leaf)) [933, 772, 8169] (.node (.node .leaf [933, 774, 8168] .leaf) [933, 776, 939] .leaf)) [933, 788, 8025] (.node (.node (.node .leaf [937, 768, 8186] .leaf) [937, 769, 911] (.node .leaf [937, 787, 8040] .leaf)) [937, 788, 8041] (.node (.node .leaf [937, 837, 8188] .leaf) [940, 837, 8116] .leaf)))))

/-- Rows of Data/Comp.lean (proof aid). -/
def compT9 : Tree (List Nat) := (.node (.node (.node (.node (.node (.node .leaf [945, 768, 8048] .leaf) [945, 769, 940] (.node .leaf [945, 772, 8113] .leaf)) [945, 774, 8112] (.node (.node .leaf [945, 787, 7936] .leaf) [945, 788, 7937] (.node .leaf [945, 834, 8118] .leaf))) [945, 837, 8115] (.node (.node (.node .leaf [949, 768, 8050] .leaf) [949, 769, 941] (.node .leaf [949, 787, 7952] .leaf)) [949, 788, 7953] (.node (.node .leaf [951, 768, 8052] .leaf) [951, 769, 942] .leaf))) [951, 787, 7968] (.node (.node (.node (.node .leaf [951, 788, 7969] .leaf) [951, 834, 8134] (.node .leaf [951, 837, 8131] .leaf)) [953, 768, 8054] (.node (.node .leaf [953, 769, 943] .leaf) [953, 772, 8145] (.node .leaf [953, 774, 8144] .leaf))) [953, 776, 970] (.node (.node (.node .leaf [953, 787, 7984] .leaf) [953, 788, 7985] (.node .leaf [953, 834, 8150] .leaf)) [959, 768, 8056] (.node (.node .leaf [959, 769, 972] .leaf) [959, 787, 8000] .leaf)))) [959, 788, 8001] (.node (.node (.node (.node (.node .leaf [961, 787, 8164] .leaf) [961, 788, 8165] (.node .leaf [965, 768, 8058] .leaf)) [965, 769, 973] (.node (.node .leaf [965, 772, 8161] .leaf) [965, 774, 8160] (.node .leaf [965, 776, 971] .leaf))) [965, 787, 8016] (.node (.node (.node .leaf [965, 788, 8017] .leaf) [965, 834, 8166] (.node .leaf [969, 768, 8060] .leaf)) [969, 769, 974] (.node (.node .leaf [969, 787, 8032] .leaf) [969, 788, 8033] .leaf))) [969, 834, 8182] (.node (.node (.node (.node .leaf [969, 837, 8179] .leaf) [970, 768, 8146] (.node .leaf [970, 769, 912] .leaf)) [970, 834, 8151] (.node (.node .leaf [971, 768, 8162] .leaf) [971, 769, 944] .leaf)) [971, 834, 8167] (.node (.node (.node .leaf [974, 837, 8180] .leaf) [978, 769, 979] (.node .leaf [978, 776, 980] .leaf)) [1030, 776, 1031] (.node (.node .leaf [1040, 774, 1232] .leaf) [1040, 776, 1234] .leaf)))))

/-- Rows of Data/Comp.lean (proof aid). -/
def compT10 : Tree (List Nat) := (.node (.node (.node (.node (.node (.node .leaf [1045, 768, 1024] .leaf) [1045, 774, 1238] (.node .leaf [1045, 776, 1025] .leaf)) [1046, 774, 1217] (.node (.node .leaf [1046, 776, 1244] .leaf) [1047, 776, 1246] (.node .leaf [1048, 768, 1037] .leaf))) [1048, 772, 1250] (.node (.node (.node .leaf [1048, 774, 1049] .leaf) [1048, 776, 1252] (.node .leaf [1050, 769, 1036] .leaf)) [1054, 776, 1254] (.node (.node .leaf [1059, 772, 1262] .leaf) [1059, 774, 1038] .leaf))) [1059, 776, 1264] (.node (.node (.node (.node .leaf [1059, 779, 1266] .leaf) [1063, 776, 1268] (.node .leaf [1067, 776, 1272] .leaf)) [1069, 776, 1260] (.node (.node .leaf [1072, 774, 1233] .leaf) [1072, 776, 1235] (.node .leaf [1075, 769, 1107] .leaf))) [1077, 768, 1104] (.node (.node (.node .leaf [1077, 774, 1239] .leaf) [1077, 776, 1105] (.node .leaf [1078, 774, 1218] .leaf)) [1078, 776, 1245] (.node (.node .leaf [1079, 776, 1247] .leaf) [1080, 768, 1117] .leaf)))) [1080, 772, 1251] (.node (.node (.node (.node (.node .leaf [1080, 774, 1081] .leaf) [1080, 776, 1253] (.node .leaf [1082, 769, 1116] .leaf)) [1086, 776, 1255] (.node (.node .leaf [1091, 772, 1263] .leaf) [1091, 774, 1118] (.node .leaf [1091, 776, 1265] .leaf))) [1091, 779, 1267] (.node (.node (.node .leaf [1095, 776, 1269] .leaf) [1099, 776, 1273] (.node .leaf [1101, 776, 1261] .leaf)) [1110, 776, 1111] (.node (.node .leaf [1140, 783, 1142] .leaf) [1141, 783, 1143] .leaf))) [1240, 776, 1242] (.node (.node (.node (.node .leaf [1241, 776, 1243] .leaf) [1256, 776, 1258] (.node .leaf [1257, 776, 1259] .leaf)) [1575, 1619, 1570] (.node (.node .leaf [1575, 1620, 1571] .leaf) [1575, 1621, 1573] .leaf)) [1608, 1620, 1572] (.node (.node (.node .leaf [1610, 1620, 1574] .leaf) [1729, 1620, 1730] (.node .leaf [1746, 1620, 1747] .leaf)) [1749, 1620, 1728] (.node (.node .leaf [2344, 2364, 2345] .leaf) [2352, 2364, 2353] .leaf)))))

/-- Rows of Data/Comp.lean (proof aid). -/
def compT11 : Tree (List Nat) := (.node (.node (.node (.node (.node (.node .leaf [2503, 2494, 2507] .leaf) [2503, 2519, 2508] (.node .leaf [2887, 2878, 2891] .leaf)) [2887, 2902, 2888] (.node (.node .leaf [2887, 2903, 2892] .leaf) [2962, 3031, 2964] (.node .leaf [3014, 3006, 3018] .leaf))) [3014, 3031, 3020] (.node (.node (.node .leaf [3015, 3006, 3019] .leaf) [3142, 3158, 3144] (.node .leaf [3263, 3285, 3264] .leaf)) [3270, 3266, 3274] (.node (.node .leaf [3270, 3285, 3271] .leaf) [3270, 3286, 3272] .leaf))) [3274, 3285, 3275] (.node (.node (.node (.node .leaf [3398, 3390, 3402] .leaf) [3398, 3415, 3404] (.node .leaf [3399, 3390, 3403] .leaf)) [3545, 3530, 3546] (.node (.node .leaf [3545, 3535, 3548] .leaf) [3545, 3551, 3550] .leaf)) [3548, 3530, 3549] (.node (.node (.node .leaf [4133, 4142, 4134] .leaf) [6917, 6965, 6918] (.node .leaf [6919, 6965, 6920] .leaf)) [6921, 6965, 6922] (.node (.node .leaf [6923, 6965, 6924] .leaf) [6925, 6965, 6926] .leaf)))) [6929, 6965, 6930] (.node (.node (.node (.node (.node .leaf [6970, 6965, 6971] .leaf) [6972, 6965, 6973] (.node .leaf [6974, 6965, 6976] .leaf)) [6975, 6965, 6977] (.node (.node .leaf [6978, 6965, 6979] .leaf) [7734, 772, 7736] (.node .leaf [7735, 772, 7737] .leaf))) [7770, 772, 7772] (.node (.node (.node .leaf [7771, 772, 7773] .leaf) [7778, 775, 7784] (.node .leaf [7779, 775, 7785] .leaf)) [7840, 770, 7852] (.node (.node .leaf [7840, 774, 7862] .leaf) [7841, 770, 7853] .leaf))) [7841, 774, 7863] (.node (.node (.node (.node .leaf [7864, 770, 7878] .leaf) [7865, 770, 7879] (.node .leaf [7884, 770, 7896] .leaf)) [7885, 770, 7897] (.node (.node .leaf [7936, 768, 7938] .leaf) [7936, 769, 7940] .leaf)) [7936, 834, 7942] (.node (.node (.node .leaf [7936, 837, 8064] .leaf) [7937, 768, 7939] (.node .leaf [7937, 769, 7941] .leaf)) [7937, 834, 7943] (.node (.node .leaf [7937, 837, 8065] .leaf) [7938, 837, 8066] .leaf)))))

/-- Rows of Data/Comp.lean (proof aid). -/
def compT12 : Tree (List Nat) := (.node (.node (.node (.node (.node (.node .leaf [7940, 837, 8068] .leaf) [7941, 837, 8069] (.node .leaf [7942, 837, 8070] .leaf)) [7943, 837, 8071] (.node (.node .leaf [7944, 768, 7946] .leaf) [7944, 769, 7948] (.node .leaf [7944, 834, 7950] .leaf))) [7944, 837, 8072] (.node (.node (.node .leaf [7945, 768, 7947] .leaf) [7945, 769, 7949] (.node .leaf [7945, 834, 7951] .leaf)) [7945, 837, 8073] (.node (.node .leaf [7946, 837, 8074] .leaf) [7947, 837, 8075] .leaf))) [7948, 837, 8076] (.node (.node (.node (.node .leaf [7949, 837, 8077] .leaf) [7950, 837, 8078] (.node .leaf [7951, 837, 8079] .leaf)) [7952, 768, 7954] (.node (.node .leaf [7952, 769, 7956] .leaf) [7953, 768, 7955] (.node .leaf [7953, 769, 7957] .leaf))) [7960, 768, 7962] (.node (.node (.node .leaf [7960, 769, 7964] .leaf) [7961, 768, 7963] (.node .leaf [7961, 769, 7965] .leaf)) [7968, 768, 7970] (.node (.node .leaf [7968, 769, 7972] .leaf) [7968, 834, 7974] .leaf)))) [7968, 837, 8080] (.node (.node (.node (.node (.node .leaf [7969, 768, 7971] .leaf) [7969, 769, 7973] (.node .leaf [7969, 834, 7975] .leaf)) [7969, 837, 8081] (.node (.node .leaf [7970, 837, 8082] .leaf) [7971, 837, 8083] (.node .leaf [7972, 837, 8084] .leaf))) [7973, 837, 8085] (.node (.node (.node .leaf [7974, 837, 8086] .leaf) [7975, 837, 8087] (.node .leaf [7976, 768, 7978] .leaf)) [7976, 769, 7980] (.node (.node .leaf [7976, 834, 7982] .leaf) [7976, 837, 8088] .leaf))) [7977, 768, 7979] (.node (.node (.node (.node .leaf [7977, 769, 7981] .leaf) [7977, 834, 7983] (.node .leaf [7977, 837, 8089] .leaf)) [7978, 837, 8090] (.node (.node .leaf [7979, 837, 8091] .leaf) [7980, 837, 8092] .leaf)) [7981, 837, 8093] (.node (.node (.node .leaf [7982, 837, 8094] .leaf) [7983, 837, 8095] (.node .leaf [7984, 768, 7986] .leaf)) [7984, 769, 7988] (.node (.node .leaf [7984, 834, 7990] .leaf) [7985, 768, 7987] .leaf)))))

/-- Rows of Data/Comp.lean (proof aid). -/
def compT13 : Tree (List Nat) := (.node (.node (.node (.node (.node (.node .leaf [7985, 834, 7991] .leaf) [7992, 768, 7994] (.node .leaf [7992, 769, 7996] .leaf)) [7992, 834, 7998] (.node (.node .leaf [7993, 768, 7995] .leaf) [7993, 769, 7997] (.node .leaf [7993, 834, 7999] .leaf))) [8000, 768, 8002] (.node (.node (.node .leaf [8000, 769, 8004] .leaf) [8001, 768, 8003] (.node .leaf [8001, 769, 8005] .leaf)) [8008, 768, 8010] (.node (.node .leaf [8008, 769, 8012] .leaf) [8009, 768, 8011] .leaf))) [8009, 769, 8013] (.node (.node (.node (.node .leaf [8016, 768, 8018] .leaf) [8016, 769, 8020] (.node .leaf [8016, 834, 8022] .leaf)) [8017, 768, 8019] (.node (.node .leaf [8017, 769, 8021] .leaf) [8017, 834, 8023] (.node .leaf [8025, 768, 8027] .leaf))) [8025, 769, 8029] (.node (.node (.node .leaf [8025, 834, 8031] .leaf) [8032, 768, 8034] (.node .leaf [8032, 769, 8036] .leaf)) [8032, 834, 8038] (.node (.node .leaf [8032, 837, 8096] .leaf) [8033, 768, 8035] .leaf)))) [8033, 769, 8037] (.node (.node (.node (.node (.node .leaf [8033, 834, 8039] .leaf) [8033, 837, 8097] (.node .leaf [8034, 837, 8098] .leaf)) [8035, 837, 8099] (.node (.node .leaf [8036, 837, 8100] .leaf) [8037, 837, 8101] (.node .leaf [8038, 837, 8102] .leaf))) [8039, 837, 8103] (.node (.node (.node .leaf [8040, 768, 8042] .leaf) [8040, 769, 8044] (.node .leaf [8040, 834, 8046] .leaf)) [8040, 837, 8104] (.node (.node .leaf [8041, 768, 8043] .leaf) [8041, 769, 8045] .leaf))) [8041, 834, 8047] (.node (.node (.node (.node .leaf [8041, 837, 8105] .leaf) [8042, 837, 8106] (.node .leaf [8043, 837, 8107] .leaf)) [8044, 837, 8108] (.node (.node .leaf [8045, 837, 8109] .leaf) [8046, 837, 8110] .leaf)) [8047, 837, 8111] (.node (.node (.node .leaf [8048, 837, 8114] .leaf) [8052, 837, 8130] (.node .leaf [8060, 837, 8178] .leaf)) [8118, 837, 8119] (.node (.node .leaf [8127, 768, 8141] .leaf) [8127, 769, 8142] .leaf)))))

/-- Rows of Data/Comp.lean (proof aid). -/
def compT14 : Tree (List Nat) := (.node (.node (.node (.node (.node (.node .leaf [8134, 837, 8135] .leaf) [8182, 837, 8183] (.node .leaf [8190, 768, 8157] .leaf)) [8190, 769, 8158] (.node (.node .leaf [8190, 834, 8159] .leaf) [8592, 824, 8602] (.node .leaf [8594, 824, 8603] .leaf))) [8596, 824, 8622] (.node (.node (.node .leaf [8656, 824, 8653] .leaf) [8658, 824, 8655] (.node .leaf [8660, 824, 8654] .leaf)) [8707, 824, 8708] (.node (.node .leaf [8712, 824, 8713] .leaf) [8715, 824, 8716] .leaf))) [8739, 824, 8740] (.node (.node (.node (.node .leaf [8741, 824, 8742] .leaf) [8764, 824, 8769] (.node .leaf [8771, 824, 8772] .leaf)) [8773, 824, 8775] (.node (.node .leaf [8776, 824, 8777] .leaf) [8781, 824, 8813] (.node .leaf [8801, 824, 8802] .leaf))) [8804, 824, 8816] (.node (.node (.node .leaf [8805, 824, 8817] .leaf) [8818, 824, 8820] (.node .leaf [8819, 824, 8821] .leaf)) [8822, 824, 8824] (.node (.node .leaf [8823, 824, 8825] .leaf) [8826, 824, 8832] .leaf)))) [8827, 824, 8833] (.node (.node (.node (.node (.node .leaf [8828, 824, 8928] .leaf) [8829, 824, 8929] (.node .leaf [8834, 824, 8836] .leaf)) [8835, 824, 8837] (.node (.node .leaf [8838, 824, 8840] .leaf) [8839, 824, 8841] (.node .leaf [8849, 824, 8930] .leaf))) [8850, 824, 8931] (.node (.node (.node .leaf [8866, 824, 8876] .leaf) [8872, 824, 8877] (.node .leaf [8873, 824, 8878] .leaf)) [8875, 824, 8879] (.node (.node .leaf [8882, 824, 8938] .leaf) [8883, 824, 8939] .leaf))) [8884, 824, 8940] (.node (.node (.node (.node .leaf [8885, 824, 8941] .leaf) [12358, 12441, 12436] (.node .leaf [12363, 12441, 12364] .leaf)) [12365, 12441, 12366] (.node (.node .leaf [12367, 12441, 12368] .leaf) [12369, 12441, 12370] .leaf)) [12371, 12441, 12372] (.node (.node (.node .leaf [12373, 12441, 12374] .leaf) [12375, 12441, 12376] (.node .leaf [12377, 12441, 12378] .leaf)) [12379, 12441, 12380] (.node (.node .leaf [12381, 12441, 12382] .leaf) [12383, 12441, 12384] .leaf)))))

/-- Rows of Data/Comp.lean (proof aid). -/
def compT15 : Tree (List Nat) := (.node (.node (.node (.node (.node (.node .leaf [12388, 12441, 12389] .leaf) [12390, 12441, 12391] (.node .leaf [12392, 12441, 12393] .leaf)) [12399, 12441, 12400] (.node (.node .leaf [12399, 12442, 12401] .leaf) [12402, 12441, 12403] (.node .leaf [12402, 12442, 12404] .leaf))) [12405, 12441, 12406] (.node (.node (.node .leaf [12405, 12442, 12407] .leaf) [12408, 12441, 12409] (.node .leaf [12408, 12442, 12410] .leaf)) [12411, 12441, 12412] (.node (.node .leaf [12411, 12442, 12413] .leaf) [12445, 12441, 12446] .leaf))) [12454, 12441, 12532] (.node (.node (.node (.node .leaf [12459, 12441, 12460] .leaf) [12461, 12441, 12462] (.node .leaf [12463, 12441, 12464] .leaf)) [12465, 12441, 12466] (.node (.node .leaf [12467, 12441, 12468] .leaf) [12469, 12441, 12470] .leaf)) [12471, 12441, 12472] (.node (.node (.node .leaf [12473, 12441, 12474] .leaf) [12475, 12441, 12476] (.node .leaf [12477, 12441, 12478] .leaf)) [12479, 12441, 12480] (.node (.node .leaf [12481, 12441, 12482] .leaf) [12484, 12441, 12485] .leaf)))) [12486, 12441, 12487] (.node (.node (.node (.node (.node .leaf [12488, 12441, 12489] .leaf) [12495, 12441, 12496] (.node .leaf [12495, 12442, 12497] .leaf)) [12498, 12441, 12499] (.node (.node .leaf [12498, 12442, 12500] .leaf) [12501, 12441, 12502] (.node .leaf [12501, 12442, 12503] .leaf))) [12504, 12441, 12505] (.node (.node (.node .leaf [12504, 12442, 12506] .leaf) [12507, 12441, 12508] (.node .leaf [12507, 12442, 12509] .leaf)) [12527, 12441, 12535] (.node (.node .leaf [12528, 12441, 12536] .leaf) [12529, 12441, 12537] .leaf))) [12530, 12441, 12538] (.node (.node (.node (.node .leaf [12541, 12441, 12542] .leaf) [69785, 69818, 69786] (.node .leaf [69787, 69818, 69788] .leaf)) [69797, 69818, 69803] (.node (.node .leaf [69937, 69927, 69934] .leaf) [69938, 69927, 69935] .leaf)) [70471, 70462, 70475] (.node (.node (.node .leaf [70471, 70487, 70476] .leaf) [70841, 70832, 70844] (.node .leaf [70841, 70842, 70843] .leaf)) [70841, 70845, 70846] (.node (.node .leaf [71096, 71087, 71098] .leaf) [71097, 71087, 71099] .leaf)))))

/-- All rows of Data/Comp.lean (proof aid). -/
@[irreducible] def compTree : Tree (List Nat) := (.node (.node (.node (.node compT0 [72, 770, 292] compT1) [79, 795, 416] (.node compT2 [89, 771, 7928] compT3)) [102, 775, 7711] (.node (.node compT4 [111, 772, 333] compT5) [119, 769, 7811] (.node compT6 [229, 769, 507] compT7))) [431, 769, 7912] (.node (.node (.node compT8 [942, 837, 8132] compT9) [1043, 769, 1027] (.node compT10 [2355, 2364, 2356] compT11)) [7939, 837, 8067] (.node (.node compT12 [7985, 769, 7989] compT13) [8127, 834, 8143] (.node compT14 [12385, 12441, 12386] compT15))))

end U5e.Data
