import Verif.Model.Point

/-!
# The comb table

Generated by tools/gen_model.py from src/decaf_combs_32.rs.
-/

namespace Ed448

/-- Entry 0, src/decaf_combs_32.rs:20. -/
def DECAF_PRECOMP_TABLE0 : TwistedNiels :=
  ⟨⟨0x07278dc5, 0x0e614a9f, 0x004c5124, 0x02e454ad, 0x0e1436f3, 0x0d8f58ce, 0x0e4180ec, 0x0c83ed46, 0x074a38fa, 0x0a41e932, 0x0257771e, 0x0c1e7e53, 0x03c0392f, 0x043e0ff0, 0x05ce61df, 0x02c7c640⟩,
    ⟨0x0c990b33, 0x033c4f9d, 0x0ceb55c3, 0x0c291cb1, 0x0ade88b2, 0x02ae3f58, 0x01395474, 0x06b1f9f1, 0x0b27ff7c, 0x02ded6e4, 0x04aa10e1, 0x041012ed, 0x0a36bae7, 0x03c22d20, 0x0d472b19, 0x01f584ee⟩,
    ⟨0x09ee6f60, 0x0c351477, 0x03b20c2b, 0x01574c87, 0x0a5a5e65, 0x04cd6a46, 0x0eb4204a, 0x059a068a, 0x08bc354d, 0x04c61045, 0x079d02d2, 0x0e945674, 0x0d118e28, 0x0feaf77e, 0x0115eeb5, 0x0f58a8bf⟩⟩

/-- Entry 1, src/decaf_combs_32.rs:38. -/
def DECAF_PRECOMP_TABLE1 : TwistedNiels :=
  ⟨⟨0x08fcb20f, 0x04611087, 0x01cc6f32, 0x0df43db2, 0x04516644, 0x0ffdde9f, 0x091686b9, 0x05199177, 0x0fd34473, 0x0b72b441, 0x0cb1c72b, 0x08d45684, 0x00fc17a5, 0x01518137, 0x007f74d3, 0x0a456d13⟩,
    ⟨0x09b607dc, 0x01430f14, 0x016715fc, 0x0e992ccd, 0x00a32a09, 0x0a62209b, 0x0c26b8e4, 0x0b889ced, 0x0ac109cf, 0x059bf9a3, 0x0b7feac2, 0x06871bb3, 0x0d9a0e6b, 0x0f4a4d5f, 0x00cd69a5, 0x0b95db46⟩,
    ⟨0x08bda702, 0x03630441, 0x01561558, 0x07bc5686, 0x0e30416f, 0x0f344bc8, 0x080f59d7, 0x0a645370, 0x07d00ace, 0x0b4c2007, 0x0b26f8cc, 0x0ee79620, 0x00b5403d, 0x0a6a558e, 0x066f3d19, 0x08f1d2c7⟩⟩

/-- Entry 2, src/decaf_combs_32.rs:56. -/
def DECAF_PRECOMP_TABLE2 : TwistedNiels :=
  ⟨⟨0x097d3112, 0x0ef21c02, 0x027c35b1, 0x073f89bd, 0x01ff5e33, 0x0ec44f9b, 0x0878f1ee, 0x06bee51d, 0x02aceddb, 0x01571a4b, 0x055131d1, 0x0cd0182d, 0x0c1844be, 0x026761db, 0x0f716474, 0x0f01865a⟩,
    ⟨0x0f5fe8cc, 0x021dfef3, 0x0d1dbd68, 0x038c659e, 0x0cebe283, 0x058ded9b, 0x094983ee, 0x0077bbb0, 0x0913d70c, 0x0b7b484e, 0x09506397, 0x063e477a, 0x06e01629, 0x000b996a, 0x0f75cd37, 0x0ab68b41⟩,
    ⟨0x06403a4e, 0x0a1fbd94, 0x0d611b05, 0x0be5a4e2, 0x0888bc6e, 0x0ea4f210, 0x00ae50fe, 0x043e9b0e, 0x0bd86845, 0x02abc4f6, 0x0c67f663, 0x0c3ed649, 0x01a520e7, 0x0d4eeb39, 0x0bfe7584, 0x04b19cf1⟩⟩

/-- Entry 3, src/decaf_combs_32.rs:74. -/
def DECAF_PRECOMP_TABLE3 : TwistedNiels :=
  ⟨⟨0x0f22999e, 0x099a75e6, 0x0c79f659, 0x01f16454, 0x0fddc812, 0x0d776a37, 0x0b6b0a78, 0x095fdd63, 0x0366e947, 0x0d232169, 0x021e9de7, 0x02ea77dd, 0x05f97a90, 0x0e8c46e8, 0x051f8cd9, 0x03587586⟩,
    ⟨0x06a07bdf, 0x02b6f503, 0x0f3e2646, 0x04f6940a, 0x08986799, 0x0866028f, 0x0cb50415, 0x0838b26c, 0x07f00b11, 0x01055741, 0x0447e96b, 0x08a3b6bc, 0x05e9e0c9, 0x03de3d03, 0x0b6d4011, 0x0188fca2⟩,
    ⟨0x0635312b, 0x01ca4038, 0x01e01c44, 0x078dc75c, 0x0b3100a4, 0x04340f00, 0x0bf6646e, 0x05e63e36, 0x0b624688, 0x08e1efd4, 0x0b1525e1, 0x0a61c2ff, 0x05a75b81, 0x07258750, 0x00d96e78, 0x0a863714⟩⟩

/-- Entry 4, src/decaf_combs_32.rs:92. -/
def DECAF_PRECOMP_TABLE4 : TwistedNiels :=
  ⟨⟨0x0fac8a41, 0x04a7c41f, 0x05b1c20b, 0x05bf3707, 0x00a42408, 0x0c053b57, 0x08d328e7, 0x02bb7e27, 0x03245100, 0x0b2378b6, 0x0a1a368a, 0x03318bf2, 0x0dbe02de, 0x0f4e3e0b, 0x0b1e32f8, 0x058921e4⟩,
    ⟨0x0a1118a0, 0x05e93d6f, 0x05d381e2, 0x062b4351, 0x0052e620, 0x02c42864, 0x0e6ccbd3, 0x0af258ba, 0x094d654d, 0x09542470, 0x0b010810, 0x05db01f5, 0x0efa8204, 0x09c8cf25, 0x03714ef7, 0x05f73ced⟩,
    ⟨0x0f2cf49d, 0x085f89af, 0x0480f6f0, 0x0f591ee8, 0x08114265, 0x0378ed51, 0x02a09008, 0x0f04293e, 0x0b9140ed, 0x0c58688d, 0x06399ff1, 0x0e991269, 0x06367413, 0x055bd1b9, 0x0830f999, 0x023a70cf⟩⟩

/-- Entry 5, src/decaf_combs_32.rs:110. -/
def DECAF_PRECOMP_TABLE5 : TwistedNiels :=
  ⟨⟨0x0944584e, 0x01c83772, 0x0e472bcc, 0x0c1ba881, 0x00aef13f, 0x0af2715a, 0x025610a6, 0x0bd0360d, 0x0eebebde, 0x0c42f8b3, 0x049788b1, 0x0a9e4748, 0x02efec5c, 0x0dcd1a1a, 0x0c2818c0, 0x09480d34⟩,
    ⟨0x0a565d74, 0x0b4b6e09, 0x0175aa48, 0x095efcf6, 0x07ae7810, 0x0498defe, 0x0ed26470, 0x0309b684, 0x091d4e44, 0x07a8873a, 0x057eb27a, 0x0ea4b3f8, 0x09d25a9e, 0x0979b861, 0x00eeb6e9, 0x0721a277⟩,
    ⟨0x04be195f, 0x0b422f0f, 0x03bfa2db, 0x0e88cfa8, 0x06ea4268, 0x09fd6066, 0x05e801d0, 0x095a458f, 0x082081f6, 0x0b9eee68, 0x07604948, 0x0b27edb3, 0x0d44d8db, 0x0a7f67c4, 0x0f290c01, 0x0df840cc⟩⟩

/-- Entry 6, src/decaf_combs_32.rs:128. -/
def DECAF_PRECOMP_TABLE6 : TwistedNiels :=
  ⟨⟨0x047c9103, 0x0c9fed0d, 0x0294a043, 0x0ba73ed9, 0x08e652e1, 0x05cbbc92, 0x08ee8215, 0x068419e9, 0x0786300b, 0x0f63de63, 0x0c19f8aa, 0x09aa9bb6, 0x0573213f, 0x066c536b, 0x0b2f2450, 0x0d2b77a5⟩,
    ⟨0x068d5b74, 0x0810236c, 0x0872a011, 0x0d0a1af1, 0x09e3801a, 0x07f23ee2, 0x08f8dba4, 0x09a55a67, 0x0ff9be40, 0x065445dc, 0x09a9abc5, 0x0f397878, 0x0d23f5e8, 0x0001f010, 0x0934b0c5, 0x0ff80042⟩,
    ⟨0x0b3f9745, 0x0a6749f4, 0x0180e502, 0x03ab85f4, 0x0530ed50, 0x06a7de9b, 0x0b0441bf, 0x050b5353, 0x0ac6ede4, 0x0a093583, 0x01406299, 0x0c4918ad, 0x0a353a2b, 0x00f75cf2, 0x00683a56, 0x01c6644a⟩⟩

/-- Entry 7, src/decaf_combs_32.rs:146. -/
def DECAF_PRECOMP_TABLE7 : TwistedNiels :=
  ⟨⟨0x06c09bfe, 0x0e869415, 0x0d17ad96, 0x0f6f3a5b, 0x05edad12, 0x098dbed4, 0x04921821, 0x0edfe2b8, 0x00199b67, 0x09788433, 0x085b3e9e, 0x04aab026, 0x02453c30, 0x068ac0bd, 0x0c87d8f5, 0x0167c1c1⟩,
    ⟨0x0f63f599, 0x08bba5fb, 0x00c7d63f, 0x059a3c96, 0x0b08b7d9, 0x0ce2db75, 0x02104171, 0x097e80cb, 0x06a140d0, 0x09b68be2, 0x04e94c68, 0x02b9b995, 0x0c411beb, 0x0023ca8f, 0x0cbada07, 0x0cbc4bcc⟩,
    ⟨0x077b678d, 0x053c100e, 0x000fa96f, 0x00f115c4, 0x0e22afa2, 0x05928d3d, 0x0dbdbe96, 0x0e47cd9b, 0x084abf19, 0x0597ecfe, 0x0e4c7a32, 0x058bb428, 0x06ecf584, 0x0dd582f7, 0x05eccb79, 0x0b121136⟩⟩

/-- Entry 8, src/decaf_combs_32.rs:164. -/
def DECAF_PRECOMP_TABLE8 : TwistedNiels :=
  ⟨⟨0x00a58e68, 0x0dbfb9a0, 0x0350d82f, 0x04468189, 0x07ee92c6, 0x0b4b1240, 0x08f73455, 0x0e27a790, 0x0071b5ae, 0x0f071170, 0x0ba229dd, 0x0221a5e6, 0x06a81f83, 0x01903e3f, 0x0402775f, 0x0be36325⟩,
    ⟨0x0e691756, 0x04d298d6, 0x0fce310b, 0x0775644d, 0x0823ea98, 0x0a861887, 0x04fa6e6f, 0x0cf0b601, 0x0380826f, 0x05f4e296, 0x02627f90, 0x0bf42339, 0x08122f6a, 0x02893bfc, 0x09bea228, 0x0440dbc8⟩,
    ⟨0x00a4ab73, 0x0acbb4f4, 0x08fa3366, 0x0d6a82f4, 0x0c6faac2, 0x00a7958f, 0x00a7c33c, 0x08a4cdd6, 0x0d8b6f1a, 0x05e5587d, 0x086a88e8, 0x0e40f630, 0x0bcda0ad, 0x030940cb, 0x0c35c130, 0x09a42e3d⟩⟩

/-- Entry 9, src/decaf_combs_32.rs:182. -/
def DECAF_PRECOMP_TABLE9 : TwistedNiels :=
  ⟨⟨0x0ad825f1, 0x0d37716c, 0x0ba9552a, 0x0883870c, 0x05c762e3, 0x08ef785f, 0x00469242, 0x06cb253e, 0x0ee9d967, 0x07b8f17f, 0x032b52b6, 0x0a43de69, 0x02af783c, 0x01aca9fe, 0x0ff0b680, 0x08967778⟩,
    ⟨0x0dc6c9c3, 0x06400c4c, 0x0691083f, 0x01e8c978, 0x0f68e0c5, 0x0ad74f01, 0x072b5f6a, 0x0f7feb03, 0x05ade13a, 0x02f60d17, 0x0221a678, 0x098ec54a, 0x071f244e, 0x0fcfea8a, 0x0e45ded2, 0x0dea6660⟩,
    ⟨0x0a8d6752, 0x02585b4a, 0x015a2089, 0x0e62da76, 0x01f39b68, 0x010c1c74, 0x0ced9f65, 0x0569bb1e, 0x04daa724, 0x0ba6d09e, 0x0ef281b9, 0x07d3e20a, 0x0ca3ffdc, 0x0bd7f65a, 0x050288a8, 0x0dea434a⟩⟩

/-- Entry 10, src/decaf_combs_32.rs:200. -/
def DECAF_PRECOMP_TABLE10 : TwistedNiels :=
  ⟨⟨0x0489170f, 0x07ba92a2, 0x04d31e9c, 0x0cd35635, 0x006e5430, 0x0a60d474, 0x0e8ed877, 0x09c3d5fd, 0x00dd08d1, 0x0079eaa5, 0x093ffa5f, 0x024674d5, 0x0596c53b, 0x05391be9, 0x050acdd9, 0x0856ca8d⟩,
    ⟨0x05e5bdec, 0x0d4620aa, 0x09b5d941, 0x02303c4b, 0x057ebb2a, 0x03b061f8, 0x056d49fd, 0x0371f9e8, 0x0335051e, 0x071c36c5, 0x0a4d359f, 0x040e4346, 0x059ec40c, 0x0b31dbd9, 0x071bf6de, 0x0d99353a⟩,
    ⟨0x0f0f21dd, 0x078898ad, 0x0dd8604a, 0x06e09bfe, 0x0f9bb666, 0x0efaf0e0, 0x0b8852c3, 0x0b0f685d, 0x0566b841, 0x094c86ec, 0x0ba50dbe, 0x0e5c2879, 0x04cff758, 0x0a87cd44, 0x047f23df, 0x0d3e26fd⟩⟩

/-- Entry 11, src/decaf_combs_32.rs:218. -/
def DECAF_PRECOMP_TABLE11 : TwistedNiels :=
  ⟨⟨0x0b1854f8, 0x0b82c07f, 0x006fad9f, 0x057f654a, 0x0250cf92, 0x04c00383, 0x0d291af6, 0x08b91713, 0x077859b9, 0x02f25217, 0x021f22c8, 0x05331114, 0x0fab9794, 0x0643da86, 0x080e3d40, 0x0dc7fb06⟩,
    ⟨0x00e87788, 0x0e59ffd4, 0x055a50af, 0x06431e97, 0x00fb580a, 0x0a03ce70, 0x0a3c9b9e, 0x0ad7e70a, 0x0b4db503, 0x078970a2, 0x0849637a, 0x0c800451, 0x049e123f, 0x0e7e6a5b, 0x077bcb4d, 0x0e1ed15f⟩,
    ⟨0x0af47f28, 0x0bc1d1d1, 0x0bbd81f0, 0x0ebc5501, 0x03547aa4, 0x0aa6b551, 0x051343fe, 0x074ed335, 0x0ef7d43b, 0x0d2114f6, 0x0d518aeb, 0x06335b41, 0x09692fb8, 0x0ebd4691, 0x03fada95, 0x052d5d4e⟩⟩

/-- Entry 12, src/decaf_combs_32.rs:236. -/
def DECAF_PRECOMP_TABLE12 : TwistedNiels :=
  ⟨⟨0x089799a4, 0x0ebfc9f4, 0x06980688, 0x0497535b, 0x09e6a51b, 0x0fef7649, 0x0e7a18da, 0x0018eedd, 0x072b69c7, 0x0f435d9e, 0x08281675, 0x05ab0faa, 0x0e290be8, 0x03232d06, 0x0be0286c, 0x05473ec8⟩,
    ⟨0x0ebb4874, 0x0c6eb0d0, 0x04119097, 0x0856a227, 0x029e3719, 0x0380bc7b, 0x0f0e424d, 0x0b1ae149, 0x05b9de26, 0x009b4185, 0x03d0f53f, 0x09868401, 0x0c38a6ff, 0x082e8554, 0x0353743a, 0x0e76c18c⟩,
    ⟨0x0e1ab61f, 0x08da1194, 0x09688805, 0x08edb5f8, 0x02f851bd, 0x0f497025, 0x02b6ad20, 0x07a46f63, 0x07e9f90a, 0x06d2d1c3, 0x053f665f, 0x060dd093, 0x00d86657, 0x00a625a8, 0x0edd0888, 0x00f93f6f⟩⟩

/-- Entry 13, src/decaf_combs_32.rs:254. -/
def DECAF_PRECOMP_TABLE13 : TwistedNiels :=
  ⟨⟨0x01992fb4, 0x03b019b3, 0x01f64c28, 0x04f6a2ad, 0x04e5c571, 0x08a74413, 0x02f9af3f, 0x00ca3317, 0x0a67bb8b, 0x0d478755, 0x08abb223, 0x09d1f5c4, 0x012ee901, 0x04da4d6f, 0x01f4140d, 0x084f0954⟩,
    ⟨0x05cacd43, 0x031f412f, 0x0dd20e94, 0x0e5afb75, 0x0452740e, 0x01ce24b3, 0x0df30ff1, 0x0176d6de, 0x064fffca, 0x082e22e5, 0x0007097f, 0x01d56fbe, 0x051a6918, 0x095b37c8, 0x097f8f4c, 0x08ec50ef⟩,
    ⟨0x02251f57, 0x07e2b1c5, 0x09380033, 0x0cbef37c, 0x0761bceb, 0x037ed652, 0x0c6dd232, 0x0f1c2a5d, 0x0d63ce0b, 0x026e1b90, 0x0173a6b8, 0x0938d732, 0x05da993f, 0x0d439aa4, 0x0eaccef7, 0x0d356b8d⟩⟩

/-- Entry 14, src/decaf_combs_32.rs:272. -/
def DECAF_PRECOMP_TABLE14 : TwistedNiels :=
  ⟨⟨0x0f56c67d, 0x0ed32377, 0x0e32e4a7, 0x0c3b6a4d, 0x00dd5d91, 0x0481a36c, 0x00466ba7, 0x0bb557d2, 0x0200163e, 0x0645f6d3, 0x0df7c48c, 0x05eb4c54, 0x08f1e3b4, 0x0fd8e3d0, 0x0f099147, 0x01156353⟩,
    ⟨0x089b2756, 0x0ae1b4c0, 0x0916fb5f, 0x0e686d2b, 0x02437dd8, 0x07ac43ec, 0x0e860ed2, 0x0f7bfdf7, 0x0b786dc9, 0x097dbcb8, 0x001c8b2f, 0x0ec7a904, 0x07989bdb, 0x0425ed01, 0x0a6d914d, 0x0444bc9c⟩,
    ⟨0x0b53ab7f, 0x0e5e7b83, 0x0ca44fc5, 0x04e4bed6, 0x07c40d4d, 0x008bd7a6, 0x0a4a2f0e, 0x09dbec74, 0x0fc2c73f, 0x077df3f4, 0x0e73ea8d, 0x046b1af5, 0x07be8670, 0x09f096cb, 0x0929141d, 0x03ad0a29⟩⟩

/-- Entry 15, src/decaf_combs_32.rs:290. -/
def DECAF_PRECOMP_TABLE15 : TwistedNiels :=
  ⟨⟨0x02e9b2e1, 0x0991a122, 0x001d7dc7, 0x0be75839, 0x0169d3da, 0x0fd1d0c8, 0x0a68acf9, 0x00fe0a94, 0x0afc78a2, 0x0b77bd05, 0x07f87ebc, 0x0a84f169, 0x0b0c2ecb, 0x00097cfd, 0x0352ed1b, 0x07d51d70⟩,
    ⟨0x00643159, 0x025dc2a6, 0x085f95b4, 0x01f0d8ff, 0x0c598a73, 0x0ed74a4b, 0x0f0574a9, 0x0f30afe6, 0x05d4d28c, 0x00378854, 0x0d120ac0, 0x09dc410a, 0x0e69961d, 0x01950947, 0x0b0355b0, 0x01ceb23c⟩,
    ⟨0x0ed9f1bd, 0x0ee2202d, 0x0658976d, 0x02fa4fce, 0x09716470, 0x0e7c15bc, 0x0d500369, 0x04f7ea99, 0x08318376, 0x04b995a1, 0x0af91911, 0x0246c4f8, 0x0d09dbfe, 0x0cc77a07, 0x01364be6, 0x07906f6f⟩⟩

/-- Entry 16, src/decaf_combs_32.rs:308. -/
def DECAF_PRECOMP_TABLE16 : TwistedNiels :=
  ⟨⟨0x084da36e, 0x03c97e63, 0x0ac81a09, 0x0423d53e, 0x03cdce35, 0x0b70d68f, 0x0354b92c, 0x0ee7959b, 0x0819c8ca, 0x0f4e9718, 0x0acbffe9, 0x09349f12, 0x02cb7da6, 0x05aee7b6, 0x054ffc86, 0x0d977641⟩,
    ⟨0x0fcb435a, 0x0d95d1c5, 0x0b5086f9, 0x016d1ed6, 0x07e54d71, 0x0792aa0b, 0x05f1925d, 0x067b6571, 0x0ec6176b, 0x0a219755, 0x0b12c28f, 0x0bc3f026, 0x0ffeb93e, 0x0700c897, 0x0ec50b46, 0x089b83f6⟩,
    ⟨0x0544b923, 0x0ad9cdb4, 0x07284061, 0x0d11664c, 0x0b8f910b, 0x0815ae86, 0x0591c3c6, 0x05414fb2, 0x02d7ef9e, 0x094ba83e, 0x0599386c, 0x001dbc16, 0x0493911b, 0x0c8721f0, 0x063c346c, 0x0c1be6b4⟩⟩

/-- Entry 17, src/decaf_combs_32.rs:326. -/
def DECAF_PRECOMP_TABLE17 : TwistedNiels :=
  ⟨⟨0x0111ed3b, 0x079680ce, 0x0806122c, 0x01a1ed82, 0x06d15df3, 0x00c2e746, 0x0f7150fd, 0x02c407f6, 0x0b1b0ce3, 0x0c5e7c96, 0x06863ff9, 0x09aa4462, 0x0b80be42, 0x0887b8b5, 0x0c964825, 0x0b6023ce⟩,
    ⟨0x00ca2292, 0x0fed3cd8, 0x073ca613, 0x015b043a, 0x0f9be227, 0x00a9fd7b, 0x0e2db983, 0x03b5e03d, 0x06904ef7, 0x05af72d4, 0x049faa99, 0x0c0f1b5c, 0x0bd305e1, 0x0dc86fc3, 0x01cb1797, 0x0c92f08c⟩,
    ⟨0x0b768f37, 0x01b571ef, 0x07cf5cfd, 0x09d77848, 0x027ebfd4, 0x0430e373, 0x05970a41, 0x0a92447e, 0x0c0edbac, 0x0eb13127, 0x0efeaf20, 0x0ec61e5a, 0x057d2e5c, 0x0447eebf, 0x0550e558, 0x0f01433e⟩⟩

/-- Entry 18, src/decaf_combs_32.rs:344. -/
def DECAF_PRECOMP_TABLE18 : TwistedNiels :=
  ⟨⟨0x07fc6860, 0x039dd7ce, 0x05653da1, 0x0d64f642, 0x0f57d0af, 0x03e037c7, 0x06e2bcf2, 0x063477a0, 0x07ac67e6, 0x01727dbb, 0x0efafe2e, 0x049589f5, 0x0e813d54, 0x0fc0fef2, 0x087fb50d, 0x08baa5d0⟩,
    ⟨0x08238159, 0x0a752795, 0x07a84cd6, 0x013ec953, 0x0d562525, 0x01d7fee7, 0x0191d5e5, 0x0b9eefa6, 0x070bcb8a, 0x0dbc97db, 0x07a4d395, 0x0481affc, 0x070c31bb, 0x06f73d3e, 0x0ed96a61, 0x0183f324⟩,
    ⟨0x064ba838, 0x0db04a62, 0x0fddc1b3, 0x0582b1f9, 0x0aaa027f, 0x03ee72e4, 0x08cd0dd5, 0x07d1de93, 0x0cf76afa, 0x032d5d66, 0x095c1ec2, 0x0c9c717c, 0x0764b8d6, 0x0f27aa11, 0x0b7ef36e, 0x0713a482⟩⟩

/-- Entry 19, src/decaf_combs_32.rs:362. -/
def DECAF_PRECOMP_TABLE19 : TwistedNiels :=
  ⟨⟨0x05f2b66f, 0x0ece96f9, 0x0813a27b, 0x0ece7952, 0x092e489e, 0x026fc365, 0x02de0f66, 0x07157d1a, 0x01d86ddf, 0x0759dc11, 0x0780bb0f, 0x012881e5, 0x0ad29496, 0x0c8ccc83, 0x0929eb71, 0x012b9bd1⟩,
    ⟨0x0d65cdfd, 0x01bf51f7, 0x0a16a97d, 0x0d14cdaf, 0x0fcd10e7, 0x02c38e60, 0x0393efbd, 0x0a27446e, 0x06a71fdd, 0x00b5d894, 0x0e128f2f, 0x063df2cd, 0x069b1888, 0x06c86795, 0x025d732d, 0x059ffc49⟩,
    ⟨0x0f25a20f, 0x0f05ea5d, 0x05b932ce, 0x0cb6224e, 0x0e2718d9, 0x0d3aed52, 0x0996ce72, 0x0fb89ee0, 0x0a6e1e80, 0x06197045, 0x057fc6f9, 0x0bcdf200, 0x06ae5c2c, 0x059bf78b, 0x07455db0, 0x049cacb8⟩⟩

/-- Entry 20, src/decaf_combs_32.rs:380. -/
def DECAF_PRECOMP_TABLE20 : TwistedNiels :=
  ⟨⟨0x00f75c0c, 0x06a15bb2, 0x027a5d0c, 0x079a1440, 0x0e0b4d70, 0x0d19116c, 0x0b0b268e, 0x059b83bc, 0x0f16c127, 0x05f58f63, 0x08ee2c37, 0x07995831, 0x03d07f82, 0x0defbb06, 0x01d2d446, 0x0f1f0b93⟩,
    ⟨0x0000d333, 0x09696510, 0x0bc04826, 0x0ec2f788, 0x01f67ba5, 0x00e4d02b, 0x0ace08b6, 0x0659aa8d, 0x0a3ae533, 0x0d7a38a3, 0x0a8c746b, 0x08856def, 0x02d3da1a, 0x04d7a440, 0x0229260f, 0x0ea82e06⟩,
    ⟨0x03ca2bdd, 0x034a1b3c, 0x05bca880, 0x072077a3, 0x035c1b8e, 0x005af4e9, 0x0e8b7737, 0x0a5f1a71, 0x092cb2e5, 0x04d31332, 0x0ca1c916, 0x00fe2a2d, 0x041935bb, 0x024d181b, 0x00ca0332, 0x0d9f5488⟩⟩

/-- Entry 21, src/decaf_combs_32.rs:398. -/
def DECAF_PRECOMP_TABLE21 : TwistedNiels :=
  ⟨⟨0x0bfeae96, 0x09ffd90a, 0x0624a516, 0x0cba3c2b, 0x0ee46c91, 0x05ef08bc, 0x0afb6185, 0x0e6fde30, 0x0f818ce4, 0x0f0b4db4, 0x0d2127f5, 0x06c54f45, 0x035854c7, 0x00401250, 0x03287e13, 0x0372658a⟩,
    ⟨0x0aac61d5, 0x06f6fd9b, 0x0020a895, 0x02a7710a, 0x0fc03d4d, 0x09de0db7, 0x0875f40b, 0x0cdedcb1, 0x0b6b1e22, 0x0050caf9, 0x04456ab0, 0x05e3a665, 0x0c4423d4, 0x0775fdf8, 0x05738b5d, 0x028701ea⟩,
    ⟨0x0e414d54, 0x028f8f04, 0x056c7694, 0x087037ba, 0x0d0ddb59, 0x0976b5b4, 0x0d462421, 0x0a4227e6, 0x08b4c560, 0x04c77c67, 0x0fb485a8, 0x006c9e74, 0x002d3981, 0x0c1c138a, 0x03d6b6b5, 0x040a1940⟩⟩

/-- Entry 22, src/decaf_combs_32.rs:416. -/
def DECAF_PRECOMP_TABLE22 : TwistedNiels :=
  ⟨⟨0x09400888, 0x045e8dda, 0x0fc05db7, 0x02ff12e5, 0x04afe69c, 0x0a7098d5, 0x0a500585, 0x0cdbe846, 0x03ca1882, 0x0879c159, 0x0a76c8b0, 0x03f7a7fe, 0x00c8e0a1, 0x02cd73dd, 0x096f51fe, 0x0645d6ce⟩,
    ⟨0x0bba2aa5, 0x0f19224e, 0x058e694d, 0x074f89d3, 0x097135ad, 0x0eea4865, 0x0555c7e1, 0x081579a4, 0x02930a9d, 0x010b9b87, 0x0a30ecc0, 0x0f002e87, 0x06de56e2, 0x09b9d66b, 0x0e8004eb, 0x0a3c4f45⟩,
    ⟨0x0edc2929, 0x0d4817c1, 0x08be637f, 0x0c67cb90, 0x0a6bfe9c, 0x0bd6dd1a, 0x0fe7795c, 0x0a1803a9, 0x01e2cefb, 0x01770d31, 0x0a0d1c88, 0x018054ec, 0x0240f212, 0x04fa667b, 0x0055a447, 0x0f631f7f⟩⟩

/-- Entry 23, src/decaf_combs_32.rs:434. -/
def DECAF_PRECOMP_TABLE23 : TwistedNiels :=
  ⟨⟨0x02a59286, 0x0f89335c, 0x05d55141, 0x0a0f5c90, 0x06ee9382, 0x0b41fb83, 0x0730ca43, 0x0e235d51, 0x05c0a69a, 0x0a5cb37b, 0x0e136c45, 0x09b966ff, 0x0bf80ed1, 0x0cb2ea10, 0x0b40dc35, 0x0fb2b370⟩,
    ⟨0x07758979, 0x085e78af, 0x01631a3a, 0x0275a4ee, 0x0d78b683, 0x0d26bc0e, 0x0a21064f, 0x04f8355e, 0x032696e5, 0x0d618e1a, 0x050e5680, 0x08d8d7b1, 0x04b278d2, 0x0a74cd85, 0x02203ea0, 0x01dd6270⟩,
    ⟨0x02b11745, 0x029782e9, 0x02f96200, 0x08eadf42, 0x02cdcaa2, 0x0217a39f, 0x09aefd0b, 0x0782d1ca, 0x07203654, 0x0321c6e4, 0x0020101a, 0x01e72961, 0x0e6ab16e, 0x0b562fa6, 0x04af111a, 0x005c9227⟩⟩

/-- Entry 24, src/decaf_combs_32.rs:452. -/
def DECAF_PRECOMP_TABLE24 : TwistedNiels :=
  ⟨⟨0x0011f470, 0x06bc3d53, 0x092b83e8, 0x0032d6e6, 0x0497cd0b, 0x0059722f, 0x00c497cc, 0x009b4e6f, 0x07cce6c0, 0x058a804b, 0x002bbd5d, 0x02b71d33, 0x06765fce, 0x0e2f82a3, 0x0524c703, 0x08dded99⟩,
    ⟨0x09a865f7, 0x02e78874, 0x016861ea, 0x06e4dc31, 0x037276e6, 0x09f1428c, 0x0c1e1226, 0x0e7d2e0f, 0x0b6c45f6, 0x03aeebc6, 0x0bf500c9, 0x071a8073, 0x086b530c, 0x04b22ad9, 0x0c0d79d4, 0x0f439e63⟩,
    ⟨0x0c8b829b, 0x0b2fa76a, 0x01865590, 0x08fe6bf0, 0x0e389f40, 0x059df538, 0x0eea748a, 0x06acd49e, 0x0b990cfe, 0x0ab81280, 0x0c57bfe5, 0x0c34a54a, 0x0731cedf, 0x03889ce9, 0x01b4654d, 0x081b71cc⟩⟩

/-- Entry 25, src/decaf_combs_32.rs:470. -/
def DECAF_PRECOMP_TABLE25 : TwistedNiels :=
  ⟨⟨0x0afa46dc, 0x02f194ea, 0x0fe87613, 0x08e38f57, 0x025f4ab2, 0x0dc8e5ae, 0x0575e6bd, 0x00a17809, 0x03ba366a, 0x0d3ec792, 0x00ad75e3, 0x03a7e72e, 0x08436e0a, 0x010024b8, 0x04b64051, 0x0ed3c544⟩,
    ⟨0x0bf3c738, 0x01b2fc57, 0x0993fb80, 0x06a3f918, 0x0fdec288, 0x026f7a14, 0x0cef08db, 0x075a2cdc, 0x0eecdbf1, 0x0d3ecbc9, 0x06e5bf7f, 0x048c40f0, 0x0009896b, 0x0d63e423, 0x09c056a8, 0x00598bc9⟩,
    ⟨0x0bf50cbd, 0x07ce03ec, 0x06b992ca, 0x0369ba99, 0x03a5f7f0, 0x0896d4b3, 0x0536da60, 0x0602b5b8, 0x02ba6d73, 0x0e112208, 0x03ba0d74, 0x0c3fbb90, 0x05c1daf8, 0x0d3f8ec5, 0x0a0f0be1, 0x06a8f96c⟩⟩

/-- Entry 26, src/decaf_combs_32.rs:488. -/
def DECAF_PRECOMP_TABLE26 : TwistedNiels :=
  ⟨⟨0x05c45509, 0x01fb7347, 0x0a43345a, 0x0d2b2e5e, 0x02077bd1, 0x0cb3c384, 0x0820946e, 0x029f90ad, 0x080778aa, 0x07c11b23, 0x062c1704, 0x09e54ece, 0x01ca01c3, 0x04bc60c4, 0x0a5a0b03, 0x04525679⟩,
    ⟨0x090ec6d8, 0x0766ae41, 0x0bc71380, 0x065768ca, 0x0416cdc2, 0x0b902598, 0x0d38df52, 0x0380021a, 0x06551134, 0x08f0b89d, 0x0c62c5a5, 0x04254d4c, 0x084b9b94, 0x00d79f44, 0x0ae3c50e, 0x0b516732⟩,
    ⟨0x0412784c, 0x039b0422, 0x0e8ce055, 0x0bf9fe2e, 0x04906298, 0x063ddb8a, 0x0178a0ea, 0x0db48625, 0x00fd3c4e, 0x09e9012c, 0x0950d2c4, 0x0ff30c60, 0x05565977, 0x03b9453f, 0x0ff25dfb, 0x054dc1d7⟩⟩

/-- Entry 27, src/decaf_combs_32.rs:506. -/
def DECAF_PRECOMP_TABLE27 : TwistedNiels :=
  ⟨⟨0x0a346148, 0x017085f4, 0x07f62272, 0x0c7cf7a3, 0x09bc5c30, 0x01776e12, 0x0c9eef2a, 0x09955134, 0x01df07be, 0x01ba5bdf, 0x0103a55c, 0x0ec39497, 0x0fda6cfb, 0x06578354, 0x0d4f15ee, 0x05f02719⟩,
    ⟨0x017632b0, 0x00b3a376, 0x0e1cfb6c, 0x0597199f, 0x0feafdd6, 0x042a7ccd, 0x0ebcea17, 0x04cc9f15, 0x06a6b4a4, 0x0f436e59, 0x042df0d8, 0x01688611, 0x0ec26af5, 0x00753edf, 0x0e388116, 0x00c495d7⟩,
    ⟨0x0a269aa2, 0x0ad46264, 0x0e4b9e3c, 0x02b13845, 0x08b0d7f4, 0x006a20b6, 0x0ee514ae, 0x0c271a35, 0x0a58f4d8, 0x02b67e14, 0x099a60d6, 0x0f5065b0, 0x090514bc, 0x0ba6737b, 0x0c5b898f, 0x0b6265e7⟩⟩

/-- Entry 28, src/decaf_combs_32.rs:524. -/
def DECAF_PRECOMP_TABLE28 : TwistedNiels :=
  ⟨⟨0x09e7d065, 0x0b60167d, 0x007381e8, 0x0e60ba0d, 0x0725c2d4, 0x03a4f17b, 0x076b64fa, 0x06c19fe1, 0x0af86ccb, 0x03b57b31, 0x086180fd, 0x021047c2, 0x00c6dbb6, 0x0bdc8fb0, 0x0bab4f3f, 0x0fe4a9f4⟩,
    ⟨0x0dcb3f1f, 0x00a72d23, 0x04011727, 0x0a3737f8, 0x0bbf4a47, 0x0f870c0f, 0x04b5c9ca, 0x0a7aadd0, 0x067bd072, 0x00c7715c, 0x0afcd74e, 0x0015a136, 0x0a499634, 0x080d5cae, 0x0c7514b7, 0x026b448e⟩,
    ⟨0x0e9eee08, 0x077003c5, 0x0ba2f437, 0x06eaa1bd, 0x0dfa8d2a, 0x07ae297d, 0x01aeb2d6, 0x0aa8531e, 0x0626efdc, 0x0ce283cc, 0x0d153115, 0x0efe2f51, 0x07c84995, 0x0db954c0, 0x07e00acf, 0x02ade92c⟩⟩

/-- Entry 29, src/decaf_combs_32.rs:542. -/
def DECAF_PRECOMP_TABLE29 : TwistedNiels :=
  ⟨⟨0x08dc136a, 0x0a629521, 0x00e9c012, 0x0563b3af, 0x0145db1b, 0x0d3753b0, 0x0c043dc1, 0x04550389, 0x07401bdf, 0x0ea94ae2, 0x0f2b7956, 0x02b0b949, 0x0ad8e23c, 0x0c63f780, 0x0d6bab15, 0x0e591c47⟩,
    ⟨0x05f36dae, 0x057e7ea3, 0x015de22e, 0x0f47d7ad, 0x0b105115, 0x0d757ea4, 0x0d579d7e, 0x08311457, 0x01edd4eb, 0x0b49b75b, 0x042fd63a, 0x081c7ff7, 0x07433df6, 0x0ddda318, 0x055f9c66, 0x0475727d⟩,
    ⟨0x04fa7149, 0x0be93a7d, 0x04d3396a, 0x0bef825a, 0x0951139b, 0x04c32daa, 0x0981a85e, 0x03f4be7d, 0x0a8642d0, 0x0e866d6c, 0x06f1b2f8, 0x0b912bba, 0x0c9cf5e1, 0x0e28ba64, 0x04996955, 0x03950457⟩⟩

/-- Entry 30, src/decaf_combs_32.rs:560. -/
def DECAF_PRECOMP_TABLE30 : TwistedNiels :=
  ⟨⟨0x0c607674, 0x02419222, 0x089188b3, 0x0a7f23af, 0x04e73d1c, 0x0ad12728, 0x0fae1c51, 0x08bba582, 0x0a9ecab1, 0x0fc6aa7c, 0x0eb6c2ba, 0x03df5319, 0x0a8b199a, 0x02a05af8, 0x0558407c, 0x04bf8354⟩,
    ⟨0x026da3f8, 0x08d6009b, 0x0a06b1ca, 0x0898e88c, 0x0ed7fe62, 0x0edb22b2, 0x06aabe80, 0x0fbc9351, 0x0c42ce0d, 0x08b4b470, 0x07d0dcbb, 0x0e0032ba, 0x0956ecc8, 0x0d76da3a, 0x04e3852a, 0x07f20fe7⟩,
    ⟨0x0f0f0340, 0x03182b5c, 0x09d60fc2, 0x02fd3d8d, 0x08bff43d, 0x0b73ffe0, 0x0fee6a72, 0x0d3dec97, 0x06e16949, 0x0675aafc, 0x0c6f0c86, 0x0d27f499, 0x09f3387a, 0x0e057878, 0x0b49ec2a, 0x0e52031a⟩⟩

/-- Entry 31, src/decaf_combs_32.rs:578. -/
def DECAF_PRECOMP_TABLE31 : TwistedNiels :=
  ⟨⟨0x04f9f8de, 0x06b7a067, 0x0e5c7cff, 0x0a742414, 0x06e13221, 0x041cbf3c, 0x0207af24, 0x0e3a64fd, 0x05fbe8d1, 0x087c05f1, 0x0d9e8a33, 0x04c50936, 0x01042b6d, 0x01306ec2, 0x0d1141c2, 0x0a4f4137⟩,
    ⟨0x01fa2523, 0x01ed4dc7, 0x09bf9b5c, 0x05d0bff1, 0x0e065a64, 0x0c3801ce, 0x04323fbf, 0x01ed0b50, 0x0cbbc593, 0x003ab9fd, 0x0178b8d2, 0x0df82070, 0x0c251f85, 0x0a2bcaa9, 0x074bd02e, 0x0c628a36⟩,
    ⟨0x0dea974f, 0x0f619046, 0x0fde6ee7, 0x04c39fed, 0x0f22afc5, 0x0d593cb9, 0x0e9ab4ab, 0x0624e10e, 0x041869fd, 0x09c1b40f, 0x04da6d46, 0x098f2cb4, 0x03becf31, 0x02311d09, 0x071880ab, 0x04d97d17⟩⟩

/-- Entry 32, src/decaf_combs_32.rs:596. -/
def DECAF_PRECOMP_TABLE32 : TwistedNiels :=
  ⟨⟨0x00dd1add, 0x0ddbe075, 0x085844b8, 0x04b3c7b8, 0x0f12f1ae, 0x0363e7ec, 0x06438f9d, 0x062e953e, 0x0076afe9, 0x023cc73b, 0x03b4da32, 0x0b09fa08, 0x056c541d, 0x0c7c3d24, 0x06b694d4, 0x05b591ec⟩,
    ⟨0x0da135ab, 0x00d5b4b3, 0x0064d81d, 0x0838f3e5, 0x0f6d94ed, 0x0d44eb50, 0x0502ac6d, 0x008931ab, 0x0a3d3586, 0x0debe01c, 0x075f0641, 0x025c2067, 0x0e912763, 0x05ad4b6a, 0x0ad8f247, 0x07e2c318⟩,
    ⟨0x0629d030, 0x0d79a91e, 0x0c20eb72, 0x0ad5b50f, 0x022eb1bd, 0x0edd89a2, 0x0b098ea8, 0x00ddad6f, 0x049c90c4, 0x0b8be69a, 0x09ecd346, 0x09bbe2d6, 0x06a95a48, 0x0a1def90, 0x06d2cca3, 0x0db8fd6a⟩⟩

/-- Entry 33, src/decaf_combs_32.rs:614. -/
def DECAF_PRECOMP_TABLE33 : TwistedNiels :=
  ⟨⟨0x0c1f1ac1, 0x0c41d1f9, 0x09f19146, 0x07b2df4e, 0x0fd5ba7a, 0x0b469355, 0x0afc852a, 0x0b5e1965, 0x0e2d8217, 0x0388d5f1, 0x0c09ae93, 0x022079e4, 0x0d4ef518, 0x014268ac, 0x0640464c, 0x0c1dd8d9⟩,
    ⟨0x0b92f894, 0x03fe038e, 0x072e8e32, 0x00e6da1b, 0x0fcbe0fa, 0x03a1411b, 0x0164a9e4, 0x0b55d473, 0x0c2df48d, 0x0b9a775a, 0x00659e21, 0x002ddf35, 0x0eb19cb3, 0x0a279a69, 0x025cba44, 0x0f844eab⟩,
    ⟨0x0112f3aa, 0x0c7ad952, 0x081c017a, 0x0229739f, 0x0b75a2a8, 0x008b9222, 0x0469c483, 0x0bd0d6ad, 0x0892a13c, 0x0e344297, 0x0f435a3d, 0x0a1cbeb8, 0x0f7a0bec, 0x078e2be1, 0x070ba8cd, 0x01ac54f6⟩⟩

/-- Entry 34, src/decaf_combs_32.rs:632. -/
def DECAF_PRECOMP_TABLE34 : TwistedNiels :=
  ⟨⟨0x066e8b8f, 0x0adb2c15, 0x05771a9a, 0x096c68a3, 0x056f334a, 0x08699333, 0x059f5962, 0x0ba9c934, 0x06e8ca4b, 0x09ec73fb, 0x027202e1, 0x03c3802c, 0x03e0c008, 0x031f5b73, 0x09611fa9, 0x0f9058c1⟩,
    ⟨0x0797c831, 0x04d51124, 0x050347ad, 0x08f5ae37, 0x0c1a0c8e, 0x070ced94, 0x03898e64, 0x0f6db204, 0x05750cd0, 0x00d00c9a, 0x09bad712, 0x00741ec5, 0x0ab37b7f, 0x03c9d11a, 0x09807714, 0x0a67ba16⟩,
    ⟨0x0eb5cbde, 0x0dc70fe7, 0x049331d7, 0x03cda5bb, 0x0514f18c, 0x0dec9068, 0x075b501d, 0x0f3537d9, 0x025b8e4b, 0x0dd02de7, 0x00072106, 0x06232720, 0x0e266644, 0x034607e7, 0x01215cb6, 0x0ebc51a9⟩⟩

/-- Entry 35, src/decaf_combs_32.rs:650. -/
def DECAF_PRECOMP_TABLE35 : TwistedNiels :=
  ⟨⟨0x0ee7341b, 0x0a5187e6, 0x02d83b6e, 0x0e6d52e8, 0x023094a7, 0x0df3c413, 0x044e9de9, 0x0b3324f4, 0x0a35bfe5, 0x0689eb21, 0x0ecd548d, 0x0f16363b, 0x08e7f60f, 0x0e187cc9, 0x02f0ccab, 0x0127d906⟩,
    ⟨0x087622c5, 0x000623bf, 0x0d069496, 0x0a1966fd, 0x0812f9fc, 0x0c315b7b, 0x0d128b97, 0x0bdf5efc, 0x032e3e16, 0x01d464f5, 0x081bfd7e, 0x03cd94f0, 0x02ce4009, 0x0ed9dae1, 0x036eee70, 0x02756f57⟩,
    ⟨0x0e3d61bf, 0x0b528e4c, 0x0ed051d6, 0x05a03531, 0x068d7f12, 0x0bbda4aa, 0x0e93ccb9, 0x01810a28, 0x05bef536, 0x0ef4ac52, 0x09f9f364, 0x06dcefdd, 0x078d6381, 0x06e3d9ed, 0x0f0713c4, 0x0774bd6f⟩⟩

/-- Entry 36, src/decaf_combs_32.rs:668. -/
def DECAF_PRECOMP_TABLE36 : TwistedNiels :=
  ⟨⟨0x0e3ae341, 0x0c13c5aa, 0x098373e7, 0x09c6c9ed, 0x064577a8, 0x0098f268, 0x09488b45, 0x015b886e, 0x02aadba5, 0x037692c4, 0x08e7791c, 0x0b83170b, 0x0ece1b44, 0x01670952, 0x09276da2, 0x0fd932a3⟩,
    ⟨0x0762d4a8, 0x0f1e26e9, 0x02183414, 0x0d9d7408, 0x057a0282, 0x0ffec9bd, 0x08fd497a, 0x00919e12, 0x000fe5f8, 0x0ab7ae7d, 0x0851ff68, 0x054dc442, 0x0b861687, 0x0c9ebeb3, 0x0b8b698f, 0x0507f7ca⟩,
    ⟨0x0410cc67, 0x07e5cda6, 0x0be9ef84, 0x0ab7f000, 0x02de4167, 0x031b09f8, 0x04be2064, 0x0c003f7b, 0x0ffafd2d, 0x0bc2f44e, 0x0a45cd9e, 0x013ca0a8, 0x08cff10c, 0x035e7098, 0x0d827ab7, 0x01744f57⟩⟩

/-- Entry 37, src/decaf_combs_32.rs:686. -/
def DECAF_PRECOMP_TABLE37 : TwistedNiels :=
  ⟨⟨0x0a56c404, 0x09ae3b93, 0x0a456699, 0x04a410b7, 0x0355e6b2, 0x0023a619, 0x07387257, 0x09cdc729, 0x0ae70d04, 0x055b94d4, 0x0f65b005, 0x02cbd607, 0x09697166, 0x03208b48, 0x08867370, 0x0ea2aa05⟩,
    ⟨0x028ada72, 0x0df76b33, 0x0604a7c2, 0x02e20621, 0x0a105b09, 0x0f910638, 0x096ef2cd, 0x0ef4724d, 0x06b8a2f7, 0x0377d83d, 0x05ade324, 0x0b4f4880, 0x0b152018, 0x01cd5da8, 0x0a20ca7f, 0x045af671⟩,
    ⟨0x0711c0cd, 0x00d62da6, 0x0a27d523, 0x04b53ac7, 0x0fb20e64, 0x089cc150, 0x083154fe, 0x055d2c28, 0x03448874, 0x0b5dcfd0, 0x02a505cb, 0x06d80dda, 0x0fb80dc8, 0x0b57162a, 0x02431acf, 0x07ddb516⟩⟩

/-- Entry 38, src/decaf_combs_32.rs:704. -/
def DECAF_PRECOMP_TABLE38 : TwistedNiels :=
  ⟨⟨0x0c084294, 0x0c845923, 0x0201bc25, 0x0072419a, 0x05f8e669, 0x045f408b, 0x06b74dfe, 0x0e9d6a18, 0x068fa075, 0x0e19108c, 0x074177b7, 0x017b91d8, 0x07912c5a, 0x02f0ca2c, 0x085a90a2, 0x09400aa3⟩,
    ⟨0x059b02f8, 0x01cf6408, 0x0d5ce427, 0x0758d1d5, 0x0ef4604c, 0x0763c784, 0x0e205270, 0x05fa81ae, 0x0dfc44cb, 0x0ac537bf, 0x0342d670, 0x04b919bd, 0x09bf4b7a, 0x0238508d, 0x095644f3, 0x01548887⟩,
    ⟨0x0eb7de7b, 0x08eeef4f, 0x0b0d4107, 0x03012ffb, 0x030b99d1, 0x0cb0d6fe, 0x098067cb, 0x0c4b51d5, 0x0016b7ee, 0x03356469, 0x0188542f, 0x0addaf85, 0x08de18c1, 0x04538bdd, 0x00c59d4f, 0x0999dd4f⟩⟩

/-- Entry 39, src/decaf_combs_32.rs:722. -/
def DECAF_PRECOMP_TABLE39 : TwistedNiels :=
  ⟨⟨0x04e160af, 0x026ef161, 0x0dfc9c76, 0x0c023f9e, 0x0a5f57ba, 0x0cff090d, 0x06643ae9, 0x076db7a6, 0x0c646999, 0x019462f8, 0x03854b22, 0x08fec00b, 0x092a0a1c, 0x0d550416, 0x0215ca00, 0x065db894⟩,
    ⟨0x04705b6a, 0x0f8ac5cf, 0x0cb457e3, 0x0867d82d, 0x0ccc2ce9, 0x07e13ab2, 0x08d3930e, 0x09ee9a01, 0x0cb42df8, 0x08370f8e, 0x0add263e, 0x02d9f019, 0x0b92d196, 0x03302385, 0x036e2c0c, 0x0a156545⟩,
    ⟨0x01f5bae3, 0x056dafc9, 0x0c94933e, 0x0d5fc6f3, 0x06f76b0b, 0x00d8fdf2, 0x0342c280, 0x0726f2ad, 0x0c6d0c46, 0x01e2fec8, 0x074ae570, 0x00fe83ea, 0x0c128243, 0x0353cec2, 0x0c14bd2c, 0x046657e1⟩⟩

/-- Entry 40, src/decaf_combs_32.rs:740. -/
def DECAF_PRECOMP_TABLE40 : TwistedNiels :=
  ⟨⟨0x036315c0, 0x08cc9cd2, 0x039fda54, 0x031d9c5b, 0x037e1171, 0x0a5713ef, 0x02886325, 0x0293d5ae, 0x005015e1, 0x0c4aba3e, 0x078e4fc6, 0x003f35ef, 0x0ac1527b, 0x039d6bd3, 0x0fb77106, 0x019d7c3a⟩,
    ⟨0x075fe626, 0x0b548502, 0x0ec71140, 0x053a3fd1, 0x0be096fa, 0x0e3d2d7d, 0x095cce4c, 0x0e4ac7b5, 0x09c0a494, 0x077bad44, 0x04afd5b3, 0x0b7c9881, 0x08486cf9, 0x057226f5, 0x04f0cc57, 0x0b155715⟩,
    ⟨0x0e567a50, 0x084e9d6c, 0x0f2558ec, 0x052bf5d1, 0x0ff60ee7, 0x0920d83b, 0x01d17413, 0x0afc160b, 0x07d3e7d1, 0x08ae5883, 0x0896dba4, 0x0fd676c8, 0x0540611a, 0x0004e170, 0x091f6541, 0x0f7ccb8f⟩⟩

/-- Entry 41, src/decaf_combs_32.rs:758. -/
def DECAF_PRECOMP_TABLE41 : TwistedNiels :=
  ⟨⟨0x0ecc627a, 0x04246bfc, 0x046c03a4, 0x04ba4312, 0x0872d497, 0x0bd1d101, 0x0185ee16, 0x03b73d3f, 0x0678c0e3, 0x01feb2e2, 0x089dec76, 0x0ff13c5a, 0x0e771d8f, 0x0ed06042, 0x097a83dd, 0x0a4fd2a8⟩,
    ⟨0x08a7dcd9, 0x0dbca4e9, 0x078bde99, 0x0ee29cfc, 0x095f52e9, 0x0e4a3b69, 0x09ae8096, 0x045d7018, 0x0b9b0d1b, 0x0fd2a8a3, 0x0107d8e1, 0x0af1793b, 0x0e4afa20, 0x0dbf92cb, 0x08e3681d, 0x0da60f79⟩,
    ⟨0x0af29a68, 0x065b5c41, 0x03a5ef69, 0x021ce9a0, 0x0cba4f38, 0x0b0c0a91, 0x02a54743, 0x008408de, 0x04f673ae, 0x0bcec1b8, 0x0f1e5244, 0x01b382a3, 0x0c9afae1, 0x0d1c1c24, 0x02956904, 0x05b7f3d3⟩⟩

/-- Entry 42, src/decaf_combs_32.rs:776. -/
def DECAF_PRECOMP_TABLE42 : TwistedNiels :=
  ⟨⟨0x0f2813f3, 0x04ede34a, 0x0c9e8216, 0x0d4a8e11, 0x041de8a5, 0x04796d50, 0x021cc987, 0x0c4c6b4d, 0x0e07fa1e, 0x0e8a433e, 0x0abcc5a1, 0x055720b5, 0x0c74b080, 0x08873ea9, 0x0ab65d48, 0x05b3fec1⟩,
    ⟨0x0a7119ed, 0x0417fa30, 0x08419751, 0x0af25775, 0x07b463d4, 0x0d358a48, 0x0720b00d, 0x089703cc, 0x0ff7f271, 0x0ce56314, 0x0ade62c1, 0x064db171, 0x04a22fed, 0x0640b36d, 0x0696d23f, 0x0424eb88⟩,
    ⟨0x0248f13a, 0x0b81ad88, 0x09248294, 0x0f5f6939, 0x0e8cfea6, 0x04be9b33, 0x0018df01, 0x0b56087c, 0x0bbb6242, 0x057e8846, 0x0b65a660, 0x06a5db00, 0x07daf343, 0x0963e3a8, 0x0ec2140b, 0x0badfe6d⟩⟩

/-- Entry 43, src/decaf_combs_32.rs:794. -/
def DECAF_PRECOMP_TABLE43 : TwistedNiels :=
  ⟨⟨0x09e982ea, 0x01bd59c0, 0x0937b289, 0x0f72daeb, 0x0a908e0e, 0x018b76dc, 0x012384ad, 0x0edb4985, 0x06cc9538, 0x0ce0243b, 0x00cb4e70, 0x0f96ff69, 0x0f673c8d, 0x07c77bf9, 0x0088a528, 0x05bf704c⟩,
    ⟨0x009ebda3, 0x021ce99e, 0x01875ad0, 0x0fcbd9f9, 0x0b7a0b5f, 0x09bbf6b7, 0x069b1940, 0x0388886a, 0x00f81f12, 0x0926a56d, 0x03358d46, 0x0e12903c, 0x08e1ce9d, 0x05dfce4e, 0x0e2f7e23, 0x044cfa94⟩,
    ⟨0x0234cc41, 0x06c2b9d7, 0x0e2bda7d, 0x06ad9c2a, 0x0ba701f9, 0x0b64cddd, 0x049ac580, 0x0180318c, 0x019f4c95, 0x0c35d143, 0x05cd415b, 0x03a21dc6, 0x08e04940, 0x09c474c2, 0x075e57c6, 0x0c651148⟩⟩

/-- Entry 44, src/decaf_combs_32.rs:812. -/
def DECAF_PRECOMP_TABLE44 : TwistedNiels :=
  ⟨⟨0x0fd3ce50, 0x0fb22bb5, 0x0da7ae54, 0x017b48aa, 0x0d19a536, 0x0fd5c44a, 0x0e55e45c, 0x00ccc4e4, 0x05b4c3f5, 0x0fd637d4, 0x023c37cf, 0x038914e0, 0x06a8d898, 0x0ac1881d, 0x03d943a8, 0x0611ed8d⟩,
    ⟨0x0400336c, 0x07dc52da, 0x015b9457, 0x01fded1e, 0x05568e3a, 0x0902e00f, 0x00456d2d, 0x0219bef4, 0x0fb3dbc9, 0x05684161, 0x049a76ea, 0x04a4e9be, 0x088b78ff, 0x06e685ae, 0x03042d3c, 0x021c42f1⟩,
    ⟨0x02eec2d4, 0x0a91dda6, 0x0d7b13e9, 0x0a6b7e64, 0x044c9969, 0x0384086b, 0x0f683239, 0x08de118a, 0x0b85d76c, 0x008e416f, 0x0da9b120, 0x020945eb, 0x05e7b172, 0x096a7f48, 0x0035f011, 0x00fa91c7⟩⟩

/-- Entry 45, src/decaf_combs_32.rs:830. -/
def DECAF_PRECOMP_TABLE45 : TwistedNiels :=
  ⟨⟨0x077a1535, 0x05e86940, 0x071c8f1d, 0x08bef75f, 0x06423511, 0x00a7c131, 0x00604320, 0x0906e1d7, 0x0a2ffbd6, 0x03fc46c1, 0x0e68f360, 0x0d1d5022, 0x037bbf46, 0x02515fba, 0x0e023b44, 0x0ca16234⟩,
    ⟨0x06a18c6d, 0x09df9856, 0x0968f219, 0x0cf3a200, 0x0a6d9086, 0x044ba60d, 0x0344da03, 0x0dbc9c0e, 0x04466855, 0x00f9401c, 0x05b0a8d1, 0x0d46a57c, 0x0d7ac7c6, 0x0875a635, 0x0b7e0ae6, 0x0ef4a933⟩,
    ⟨0x09e0b96f, 0x0878366a, 0x0ea9e0d8, 0x057a8573, 0x0dc3f601, 0x05ef206d, 0x0d1c4eab, 0x046756a9, 0x0bb3c12c, 0x0bccf478, 0x0f813a3b, 0x01f97ed7, 0x02460e1c, 0x01b30958, 0x00ecd5cb, 0x026a4f76⟩⟩

/-- Entry 46, src/decaf_combs_32.rs:848. -/
def DECAF_PRECOMP_TABLE46 : TwistedNiels :=
  ⟨⟨0x097030bd, 0x01390783, 0x0e859a00, 0x00e3c447, 0x04c82393, 0x064a5b33, 0x07358093, 0x0b8aabeb, 0x0b9ae73b, 0x0020778b, 0x07892a18, 0x032ee94c, 0x0cb41bda, 0x08215253, 0x093517ae, 0x05e27975⟩,
    ⟨0x0ca33eec, 0x02922b39, 0x0f3ab194, 0x090d12a5, 0x0fb5f8ed, 0x0ab60c02, 0x0abba1cf, 0x0188d292, 0x09698f6e, 0x0e10edec, 0x034133c8, 0x069a4d99, 0x0e6d3d06, 0x024aac40, 0x077661b0, 0x01702c21⟩,
    ⟨0x007aa2b5, 0x07c89a5a, 0x0ae4711d, 0x0ae492ec, 0x074f0844, 0x0ee921ab, 0x0fc5005f, 0x07842778, 0x0b28022c, 0x06a4d33c, 0x0ac0f437, 0x07b327e4, 0x06acaf12, 0x07a9d036, 0x06c9ae1c, 0x05c6544e⟩⟩

/-- Entry 47, src/decaf_combs_32.rs:866. -/
def DECAF_PRECOMP_TABLE47 : TwistedNiels :=
  ⟨⟨0x04265aa2, 0x09186859, 0x0e98ca6d, 0x0797acca, 0x00f8a184, 0x008d8c5f, 0x02b2fe6e, 0x0d1f4f1c, 0x0b48a006, 0x036783df, 0x00503527, 0x08c16512, 0x0058ce9b, 0x025fd780, 0x07be7d27, 0x068beb00⟩,
    ⟨0x0474b114, 0x019e23f0, 0x0d3b437e, 0x0eb94c2a, 0x083b75ac, 0x06ddb346, 0x09b564c6, 0x0391f920, 0x03bff7aa, 0x0083b3bb, 0x06dceefc, 0x0eedcd0f, 0x0794fe01, 0x0b50817f, 0x0aaa75c9, 0x036474de⟩,
    ⟨0x05836f3d, 0x02f00775, 0x030acc6b, 0x04d39f25, 0x02699929, 0x06b58d7b, 0x03185e62, 0x04126fdd, 0x0f32897c, 0x03aeaac0, 0x04edb66d, 0x03c0478f, 0x066a9364, 0x072f43ac, 0x0744777a, 0x003730da⟩⟩

/-- Entry 48, src/decaf_combs_32.rs:884. -/
def DECAF_PRECOMP_TABLE48 : TwistedNiels :=
  ⟨⟨0x0487cda3, 0x045fdc16, 0x04cf2ed7, 0x0b2d8e84, 0x088c1607, 0x0612c50e, 0x066c1672, 0x0a08aabc, 0x0bb24d97, 0x06031fdc, 0x05744b93, 0x01b63952, 0x0639ab17, 0x04409d62, 0x0347ab1d, 0x0a1853d0⟩,
    ⟨0x098406f8, 0x03667bf9, 0x03a12975, 0x000115c4, 0x0b20e8fd, 0x01e662f3, 0x04cb24eb, 0x019ffa53, 0x0c8efb45, 0x0016be0d, 0x026243f5, 0x0ff76a8b, 0x01a541e3, 0x0ae20d24, 0x013cd430, 0x069bd6af⟩,
    ⟨0x0140a3de, 0x08a5e5a9, 0x0653ac12, 0x05c18d41, 0x0d6e8f3d, 0x010321e9, 0x06e10aca, 0x0fbdda01, 0x08c20257, 0x077fb603, 0x0a81ed77, 0x0b5438b7, 0x09a8ce83, 0x0db1dbcb, 0x0c1aabc3, 0x026734c2⟩⟩

/-- Entry 49, src/decaf_combs_32.rs:902. -/
def DECAF_PRECOMP_TABLE49 : TwistedNiels :=
  ⟨⟨0x09b5c477, 0x07e32c04, 0x0d9bcfd8, 0x09d2bfdb, 0x045938c6, 0x0636e930, 0x07687298, 0x07fde4af, 0x0fafa5d3, 0x046a5184, 0x013a359b, 0x079b1e7f, 0x0fb927d6, 0x0875adf1, 0x061bcad2, 0x0333e21c⟩,
    ⟨0x0b6bdb19, 0x0b4b53ea, 0x043711d0, 0x09b22d8b, 0x0961785d, 0x0d948b9d, 0x0f279ead, 0x0cb167b6, 0x0678e1c9, 0x0191de3a, 0x01095c2e, 0x0d9dd951, 0x0cd43067, 0x0f284324, 0x035151dd, 0x0ed74fa5⟩,
    ⟨0x08c27472, 0x0fb7feb0, 0x0f699c77, 0x08a97b55, 0x0f923b83, 0x06d41820, 0x0f0aa975, 0x06831432, 0x063b3955, 0x0a58ffb2, 0x0a66db38, 0x04f13449, 0x02b6d583, 0x026fccd2, 0x00eeb6c2, 0x0a803eb2⟩⟩

/-- Entry 50, src/decaf_combs_32.rs:920. -/
def DECAF_PRECOMP_TABLE50 : TwistedNiels :=
  ⟨⟨0x0926830b, 0x07df6cbb, 0x0ae37865, 0x0d336058, 0x0c696423, 0x07af47da, 0x0ec64ac8, 0x048d3011, 0x0e40049f, 0x06b87666, 0x051303d7, 0x036a2e0e, 0x079dbc55, 0x0ba319bd, 0x0cc94f53, 0x03e2737e⟩,
    ⟨0x00ad95be, 0x008ed8ea, 0x09709645, 0x041d324b, 0x057a19b4, 0x0e254122, 0x0423d8d2, 0x058df9f3, 0x0ef71304, 0x0a9ab20d, 0x08ac4a81, 0x09ae0dbf, 0x07e4392a, 0x0c956597, 0x044baf55, 0x03c92694⟩,
    ⟨0x0d9d8d26, 0x02d69008, 0x0d7030a8, 0x0092f686, 0x0aa28fec, 0x01f19e95, 0x01261538, 0x02150bab, 0x0210b26c, 0x08c5a941, 0x0036d1e6, 0x09330209, 0x08e58de7, 0x062e11ec, 0x0bb9d27f, 0x011c3d11⟩⟩

/-- Entry 51, src/decaf_combs_32.rs:938. -/
def DECAF_PRECOMP_TABLE51 : TwistedNiels :=
  ⟨⟨0x0c5d8cd1, 0x08132ae5, 0x024a1d9f, 0x0121d683, 0x0fcb8c76, 0x0d6be9da, 0x00edf745, 0x0684d907, 0x06d7448e, 0x0519fbc9, 0x0dc1f27e, 0x0388182f, 0x0d41f158, 0x00235bae, 0x01a1796a, 0x0bf6cf6f⟩,
    ⟨0x0bccdf9d, 0x0437bce9, 0x085dc0a3, 0x0e0c8e2f, 0x03995a19, 0x0c91a707, 0x0e294559, 0x0856ec9f, 0x094b156e, 0x09e4b333, 0x0c497e5c, 0x0e245b0d, 0x07eeaeff, 0x06a54e68, 0x000fdb7c, 0x0f1cd1cd⟩,
    ⟨0x02eb7de6, 0x0d523b4b, 0x0f2c56f5, 0x0cf7b525, 0x04f0d1b1, 0x0b921755, 0x05984a02, 0x0bad2cbd, 0x0e2b21dd, 0x02b4af0f, 0x0f310486, 0x02492603, 0x095b9d32, 0x073e7b37, 0x09b2bd25, 0x01e837c8⟩⟩

/-- Entry 52, src/decaf_combs_32.rs:956. -/
def DECAF_PRECOMP_TABLE52 : TwistedNiels :=
  ⟨⟨0x07993d92, 0x0ce382dc, 0x0938b4c8, 0x0021153e, 0x07f48f51, 0x0096f756, 0x0fe4b0d5, 0x058f81dd, 0x06b355c7, 0x0cc379a5, 0x00d3e819, 0x02c76077, 0x026e5a40, 0x0ee22d1d, 0x05b082d7, 0x0de6d93d⟩,
    ⟨0x09a1e01a, 0x07b2743b, 0x042688c4, 0x07847ffd, 0x0610a316, 0x06c7844d, 0x050aa4b0, 0x0f0cb8b2, 0x043b3ae6, 0x0a190601, 0x077cfd80, 0x014eb10b, 0x0729dd06, 0x00170905, 0x0cd72477, 0x0063b5b9⟩,
    ⟨0x03ad1fa9, 0x0f56e5bd, 0x08031815, 0x0e7a0948, 0x069d094a, 0x0f7fc3ae, 0x0d45a9c2, 0x0ddad7a7, 0x0167a928, 0x0bc07fbf, 0x07e0479f, 0x07a5d613, 0x0ab60a00, 0x0a0659ee, 0x0342b4f9, 0x03e068b1⟩⟩

/-- Entry 53, src/decaf_combs_32.rs:974. -/
def DECAF_PRECOMP_TABLE53 : TwistedNiels :=
  ⟨⟨0x0d2b0cba, 0x0ffc5c89, 0x0e3e6fc3, 0x0d363d42, 0x018e2e8a, 0x019a1a01, 0x048882e1, 0x0f7baeff, 0x08c6b514, 0x01bd5af2, 0x02253cb2, 0x055476ca, 0x07e2ddf3, 0x0d8eb197, 0x0db228a1, 0x0b173b1a⟩,
    ⟨0x0d65ec97, 0x05b64c6f, 0x0877bc7f, 0x0c1fdd7f, 0x089f841c, 0x00d9cc6c, 0x01aff9ad, 0x05c97b7f, 0x0475d47e, 0x075e3c61, 0x08153011, 0x01ecb1ba, 0x0d71d40d, 0x0fe7f1c8, 0x0a229832, 0x03fa9757⟩,
    ⟨0x02f528f8, 0x00d34662, 0x07a62227, 0x01e1f749, 0x0f9af433, 0x0fff70d2, 0x0079ea3c, 0x02812c6d, 0x06b25d7f, 0x06898af5, 0x01349645, 0x0c17c44f, 0x0a3eb539, 0x0207172e, 0x0d6a263d, 0x00608e8b⟩⟩

/-- Entry 54, src/decaf_combs_32.rs:992. -/
def DECAF_PRECOMP_TABLE54 : TwistedNiels :=
  ⟨⟨0x0450f9ba, 0x02389319, 0x0aa1250a, 0x03677f31, 0x042f38cb, 0x092c3db6, 0x0dfc9773, 0x0f8b64c0, 0x0505b795, 0x0cd49fe3, 0x0090a510, 0x068105a4, 0x072a8bb6, 0x0df0ba20, 0x03afd8be, 0x0eb39614⟩,
    ⟨0x00e70bcb, 0x0f11cc8e, 0x0974e7dd, 0x0e5dc689, 0x09ee5870, 0x014e409f, 0x09acbd63, 0x0826e668, 0x0d895d88, 0x08a6f4e3, 0x041fd4ad, 0x0b26a8da, 0x0f83efd7, 0x00fb7723, 0x00a5f6c3, 0x09c749db⟩,
    ⟨0x04db3200, 0x05f2b130, 0x07459b86, 0x022507ff, 0x02b4f0bb, 0x00f4c1c9, 0x050e0eb9, 0x0c8cb42c, 0x038aad80, 0x04781d10, 0x0a2254af, 0x02dcf20a, 0x051a93e2, 0x0d9ecda8, 0x0eca6cb2, 0x043f6b92⟩⟩

/-- Entry 55, src/decaf_combs_32.rs:1010. -/
def DECAF_PRECOMP_TABLE55 : TwistedNiels :=
  ⟨⟨0x04fe26c9, 0x067f8f0c, 0x0c8f67b9, 0x079c4a3c, 0x0f23550d, 0x082b1e62, 0x0aefd7f5, 0x0f2d409c, 0x0db26e81, 0x080e67dc, 0x0ea1f98a, 0x087ae993, 0x0cf61d03, 0x0aa108be, 0x0fb608a3, 0x01acf11e⟩,
    ⟨0x0d994651, 0x0468711b, 0x067561bf, 0x033108fa, 0x092a54b4, 0x089d7601, 0x0e9f1871, 0x0adc433d, 0x0f36e050, 0x00467d05, 0x00579f7f, 0x07847e0f, 0x0320052d, 0x0a2314ad, 0x09f0b243, 0x0b3a9364⟩,
    ⟨0x0454af26, 0x07dda014, 0x0b22df7c, 0x00c49fa1, 0x0761dc2d, 0x05cd4d7e, 0x0a14b368, 0x02af81a1, 0x0cfd7ddf, 0x0a5e57b1, 0x03a0f738, 0x0f90ab3e, 0x04d7bc0f, 0x05cb8373, 0x0abb405a, 0x0f608c16⟩⟩

/-- Entry 56, src/decaf_combs_32.rs:1028. -/
def DECAF_PRECOMP_TABLE56 : TwistedNiels :=
  ⟨⟨0x0c297f8b, 0x0e828333, 0x0c3f7e1f, 0x09ef3cf8, 0x0ff31cb9, 0x0ab45f8f, 0x0cb0b013, 0x0c8b4178, 0x03260a3f, 0x0d0c50dd, 0x0257f5bc, 0x097126ac, 0x090c705a, 0x042376cc, 0x04a1071e, 0x01d96fdb⟩,
    ⟨0x0e744185, 0x06c59c9a, 0x0b4282cd, 0x09fc32f1, 0x0a59b1ac, 0x04d6348c, 0x081be067, 0x01053768, 0x013147dc, 0x0af40960, 0x05cb3124, 0x04abfb5a, 0x0626c354, 0x00d2a7f8, 0x08e07431, 0x09c6ed56⟩,
    ⟨0x07611e57, 0x0abd2bb2, 0x0fbbd267, 0x0cf99bd1, 0x0d478cc7, 0x06f7ac78, 0x0dd23fbb, 0x0dc9d340, 0x00099c46, 0x0d3ddd52, 0x06a03486, 0x09836dbb, 0x07c36883, 0x0f19de26, 0x03349904, 0x02088561⟩⟩

/-- Entry 57, src/decaf_combs_32.rs:1046. -/
def DECAF_PRECOMP_TABLE57 : TwistedNiels :=
  ⟨⟨0x069b482c, 0x0832d023, 0x00d93450, 0x0cba52ff, 0x08d554db, 0x03fa9c90, 0x0b54122f, 0x08d1e357, 0x0dc950c6, 0x0abd91c2, 0x04c0ec69, 0x07eff1df, 0x03fb2d31, 0x03f6aeb1, 0x09fc5b2c, 0x0002d617⟩,
    ⟨0x0bf1814a, 0x02809e4b, 0x09fafb32, 0x0b9e854f, 0x010f7a67, 0x0d35e67c, 0x06e748cf, 0x08f1bcb7, 0x015687d2, 0x04224d95, 0x04e620c4, 0x05ba0b77, 0x05d54119, 0x0b5e57db, 0x05683282, 0x0e15babe⟩,
    ⟨0x07e36376, 0x0b936125, 0x03709d03, 0x049f348e, 0x0c455aa7, 0x0dd0a597, 0x03320668, 0x0078ce60, 0x0e3195dc, 0x0635f64a, 0x0b508288, 0x0a4ed450, 0x05e1cc1d, 0x075b9adb, 0x067741f2, 0x0fca5881⟩⟩

/-- Entry 58, src/decaf_combs_32.rs:1064. -/
def DECAF_PRECOMP_TABLE58 : TwistedNiels :=
  ⟨⟨0x0a819691, 0x0a9e7730, 0x04992b70, 0x0d9cc73c, 0x0067de5a, 0x0e299bde, 0x0705192a, 0x08c314eb, 0x07e8a3cc, 0x0e7226f1, 0x06e65a47, 0x029dfd95, 0x09073b12, 0x053a8e83, 0x0ab1597e, 0x06f942b2⟩,
    ⟨0x0a7dbe2f, 0x0a7efe46, 0x05014fe7, 0x02f66fd5, 0x0a1ff026, 0x06a428af, 0x0604ab72, 0x056caaa9, 0x07fac8ae, 0x033f3bcd, 0x01c86764, 0x0ccb1aa0, 0x0f13bf40, 0x0158d1ed, 0x06fcf3b4, 0x09848ee7⟩,
    ⟨0x0132a1c6, 0x0e3c287f, 0x04233a01, 0x06b0db80, 0x02ad889b, 0x02a38790, 0x0b0f24d5, 0x0490b258, 0x05232a02, 0x07f0e074, 0x052d1dc4, 0x00c95c8c, 0x0bcbc40d, 0x007fb060, 0x039dc67d, 0x02e50bf1⟩⟩

/-- Entry 59, src/decaf_combs_32.rs:1082. -/
def DECAF_PRECOMP_TABLE59 : TwistedNiels :=
  ⟨⟨0x06531ebe, 0x03934374, 0x035d429d, 0x0c8509d8, 0x0f6b0018, 0x0e79ecef, 0x0e8efce5, 0x04abfd31, 0x01e20210, 0x07bbfaaa, 0x0193e179, 0x0e3be89c, 0x0c31d585, 0x01c420f4, 0x05bef5ae, 0x0f414a31⟩,
    ⟨0x05f1b144, 0x082aeace, 0x08cf4dd3, 0x0f68b310, 0x0dde3020, 0x0634af01, 0x0f5c2355, 0x00beab5d, 0x01b49b0b, 0x0e8b790d, 0x054e36f4, 0x0e48d158, 0x05f3db9f, 0x040ab2d9, 0x0d9e899a, 0x02711c4e⟩,
    ⟨0x0b66f207, 0x083d695d, 0x0a58aa77, 0x02a2f8ad, 0x016b4818, 0x02271eec, 0x0141f337, 0x08443a70, 0x0640352b, 0x0d60ae50, 0x0385490c, 0x0816cee1, 0x0e989cbc, 0x06577b21, 0x0317b416, 0x0af2a0d2⟩⟩

/-- Entry 60, src/decaf_combs_32.rs:1100. -/
def DECAF_PRECOMP_TABLE60 : TwistedNiels :=
  ⟨⟨0x0b39549a, 0x098cddc8, 0x0b05d22c, 0x06da37e3, 0x0d4eb3cb, 0x0ce633cf, 0x0f526acd, 0x0fda288e, 0x08c5d30a, 0x02533887, 0x04e5a1b4, 0x0f34438c, 0x07c310f1, 0x0584efea, 0x01b660ad, 0x041a551f⟩,
    ⟨0x0ca2450a, 0x05fa020c, 0x0b6416d8, 0x0491c29d, 0x0f9f9a85, 0x037cefe3, 0x00647066, 0x03d40523, 0x00fdbe89, 0x049e835f, 0x01a0815c, 0x0feb78ac, 0x02dc9724, 0x0828e4b3, 0x0c8d6fd4, 0x0db84f2d⟩,
    ⟨0x0429bc85, 0x02808570, 0x0c40c8ac, 0x09d78dbe, 0x0bc3a7b4, 0x052b4434, 0x09fe281c, 0x0801b641, 0x0764540a, 0x08839a68, 0x0f958be4, 0x014ba034, 0x0ec068f7, 0x0a31dbb6, 0x0e8c9cd9, 0x077bd9bf⟩⟩

/-- Entry 61, src/decaf_combs_32.rs:1118. -/
def DECAF_PRECOMP_TABLE61 : TwistedNiels :=
  ⟨⟨0x01eb72d2, 0x0a0b68ec, 0x0c0d45a0, 0x02c03235, 0x023fe8c5, 0x05536273, 0x0b17af94, 0x06186e94, 0x06e29f14, 0x0a990619, 0x06567733, 0x025b3aee, 0x00080517, 0x07e0dd84, 0x01a4ba93, 0x018eb580⟩,
    ⟨0x0a768d7c, 0x07bf562c, 0x074e387c, 0x06c1f3a1, 0x07fee939, 0x0f024b44, 0x0f01143f, 0x07e7af75, 0x04eed89d, 0x03adb70b, 0x021ad79a, 0x0e435440, 0x042011f6, 0x091f7f70, 0x0e3a0ddc, 0x093c1a1e⟩,
    ⟨0x084095bf, 0x028018fe, 0x0b41f3bd, 0x091c0f9d, 0x0aca7dba, 0x000445df, 0x07e6bdc6, 0x00603d30, 0x040ea4b0, 0x0726c4c8, 0x0741716a, 0x09220d1c, 0x00a03006, 0x0d491864, 0x0bda1d21, 0x054caa25⟩⟩

/-- Entry 62, src/decaf_combs_32.rs:1136. -/
def DECAF_PRECOMP_TABLE62 : TwistedNiels :=
  ⟨⟨0x038971d6, 0x03973d89, 0x0a80c1f5, 0x02aca26f, 0x0aa6b513, 0x0108af1f, 0x0d7924e6, 0x0daae275, 0x0d721308, 0x053634ce, 0x00bbd443, 0x0d2355fe, 0x02d22095, 0x0357612b, 0x04136cf3, 0x0f9bb9dd⟩,
    ⟨0x020be973, 0x0938f97e, 0x06aaf306, 0x099141a3, 0x09e545a1, 0x057b0ca2, 0x0f9fbc13, 0x085db571, 0x054b4693, 0x08b333c5, 0x03e241cb, 0x043ab6ef, 0x0a1e5c70, 0x054fb20a, 0x02760adf, 0x0be0ff85⟩,
    ⟨0x00a1fc5a, 0x0d400ed3, 0x075e6307, 0x0e424e05, 0x0c07b2c6, 0x036e3986, 0x0d145650, 0x007960e4, 0x023cdc93, 0x0a643ab8, 0x092c7976, 0x026e9ee2, 0x05d3fdeb, 0x01f9d255, 0x033d437d, 0x012c3fb8⟩⟩

/-- Entry 63, src/decaf_combs_32.rs:1154. -/
def DECAF_PRECOMP_TABLE63 : TwistedNiels :=
  ⟨⟨0x031be374, 0x062dd0fb, 0x04c8e727, 0x0fcc96b8, 0x075e6ae3, 0x03f64f13, 0x0d1af004, 0x057d9b6d, 0x01103c7b, 0x0d6a167b, 0x080fb537, 0x0dd28f31, 0x07167128, 0x04ff27ad, 0x0461f2ac, 0x08934c33⟩,
    ⟨0x0c32b31a, 0x00050d70, 0x06d437b3, 0x01939d57, 0x08bf9fe6, 0x0d709e59, 0x0bd2ee9e, 0x0a885b34, 0x08ab1a50, 0x0dd4b5c0, 0x00b55639, 0x091bebd5, 0x04acdbc6, 0x0cf79ff6, 0x0d826336, 0x06067a39⟩,
    ⟨0x086fffbc, 0x09a4b8d4, 0x000ef9b4, 0x0458102d, 0x0b3cfdf0, 0x0f498293, 0x060b1b92, 0x0ed2d7b9, 0x068fc137, 0x0ce3cd6c, 0x01eccf99, 0x04b60f43, 0x09e7e2b8, 0x0081efbe, 0x07981133, 0x0a36f0ae⟩⟩

/-- Entry 64, src/decaf_combs_32.rs:1172. -/
def DECAF_PRECOMP_TABLE64 : TwistedNiels :=
  ⟨⟨0x0dfce6dc, 0x006918f5, 0x093c57fb, 0x0d4bf1c7, 0x09435364, 0x069a3f64, 0x05b0cd6e, 0x0e89a50e, 0x07e973af, 0x0b9f6a23, 0x0104e41d, 0x06d4ed8b, 0x03924cd2, 0x0498946a, 0x0ac9d4f7, 0x0c136ec5⟩,
    ⟨0x0d179101, 0x051207ab, 0x00d9c5da, 0x0fc2a5c2, 0x0701b6df, 0x0fb9d5f2, 0x0dea82b8, 0x02dd040f, 0x038442ff, 0x0f163b07, 0x068855b8, 0x0d9736bd, 0x0005e61c, 0x0e0d8e93, 0x03988570, 0x0df5a40b⟩,
    ⟨0x0f53acc9, 0x0ee563d6, 0x05959acc, 0x0d465d2b, 0x0bba26c8, 0x06575973, 0x0f81a1a3, 0x0c9e4d84, 0x08aa468a, 0x0c3fbc4e, 0x00eeaa11, 0x04814993, 0x0611000d, 0x08850a6f, 0x088337f9, 0x06709f67⟩⟩

/-- Entry 65, src/decaf_combs_32.rs:1190. -/
def DECAF_PRECOMP_TABLE65 : TwistedNiels :=
  ⟨⟨0x0597455f, 0x0b373076, 0x053ac0f5, 0x0e83f1af, 0x01dc6840, 0x041f63c0, 0x0b0c6f4b, 0x097dea19, 0x04c1572c, 0x07f9d63b, 0x02d0f5f0, 0x0e692d49, 0x0e83b4ad, 0x0cbcb392, 0x0ed9b1a8, 0x069c0f39⟩,
    ⟨0x036bf8f4, 0x0ab13af4, 0x0dac8574, 0x00bcf0a0, 0x0f705045, 0x0d50c864, 0x0debc842, 0x0c40e611, 0x09bd5caa, 0x08501048, 0x0cec026f, 0x07c5050a, 0x0c8da6d1, 0x0f67d943, 0x078074c6, 0x0de1da02⟩,
    ⟨0x0ed8f836, 0x079efcff, 0x002b5504, 0x06044238, 0x04aab7dd, 0x070a6e29, 0x015e7521, 0x020f75be, 0x09bd5414, 0x062827c1, 0x05c48700, 0x06738e42, 0x0fde0ffa, 0x0dd37618, 0x001e1c3b, 0x0bb2d65c⟩⟩

/-- Entry 66, src/decaf_combs_32.rs:1208. -/
def DECAF_PRECOMP_TABLE66 : TwistedNiels :=
  ⟨⟨0x0d825540, 0x0c903ee6, 0x0f98473e, 0x0add6c4c, 0x0d4227f1, 0x07636efe, 0x0e55e772, 0x0905124a, 0x0b12ed53, 0x0e6b38fa, 0x0863fe55, 0x045e132b, 0x0edb366a, 0x03974662, 0x02be8208, 0x0b178705⟩,
    ⟨0x0b5c52f2, 0x0e748cd7, 0x03f89cc3, 0x0ea9df88, 0x0156b6c7, 0x018970df, 0x0a33a847, 0x0c5a46c2, 0x0e32aa09, 0x0cbde395, 0x0b423140, 0x072474eb, 0x0086a23d, 0x0fb00053, 0x022d4e1f, 0x01dafcfe⟩,
    ⟨0x0288a383, 0x059eb4ff, 0x0e3388ab, 0x0283876b, 0x04a2543b, 0x0bdd2297, 0x0e982d74, 0x059eef0f, 0x03dad778, 0x097a5cf6, 0x0aebc99f, 0x04bc6002, 0x0118c690, 0x0c9a91d6, 0x02a527ab, 0x03836461⟩⟩

/-- Entry 67, src/decaf_combs_32.rs:1226. -/
def DECAF_PRECOMP_TABLE67 : TwistedNiels :=
  ⟨⟨0x035d9fbc, 0x0006e34a, 0x0b2f019a, 0x0eee4e48, 0x03003a5f, 0x06b34474, 0x0f04a7e3, 0x0541d514, 0x07647455, 0x0e81f9ee, 0x0c438f81, 0x05e2b916, 0x07b7eff0, 0x0116f813, 0x0c7039d1, 0x09bd3dec⟩,
    ⟨0x05b37bf2, 0x040f7e7c, 0x01181bba, 0x064e4dc8, 0x02a366b6, 0x0a8767ae, 0x090546f2, 0x01496b4f, 0x0f860441, 0x02a28493, 0x03049a3a, 0x021f5951, 0x0a8b7ee3, 0x0852d369, 0x0b7d30a9, 0x0dd2e7d8⟩,
    ⟨0x0bcbeef2, 0x0fa2dd90, 0x0710de2a, 0x0507d774, 0x00e7e373, 0x0b585ad1, 0x04b4f921, 0x041f487e, 0x0212f81d, 0x0191c9d8, 0x0dd8d474, 0x01bc55cb, 0x0ba8827b, 0x017954bd, 0x0991ca44, 0x004d6d3a⟩⟩

/-- Entry 68, src/decaf_combs_32.rs:1244. -/
def DECAF_PRECOMP_TABLE68 : TwistedNiels :=
  ⟨⟨0x0e3c82ab, 0x0e38abec, 0x0a2c7a86, 0x05a51f18, 0x086d592e, 0x09dafa2e, 0x0b688678, 0x0495a62e, 0x0c0eb212, 0x0b79df74, 0x08b75982, 0x023e8cc7, 0x01075e13, 0x05998cb9, 0x0a61bc76, 0x0735aa9b⟩,
    ⟨0x03ea1222, 0x0334f530, 0x0b0a5d3e, 0x0dfb3dbe, 0x092335c1, 0x02940d95, 0x03e8938a, 0x0706a7a6, 0x08bc4caf, 0x05a53355, 0x092022a9, 0x0558e331, 0x0f74c133, 0x0970d9fa, 0x063493ca, 0x02979fcb⟩,
    ⟨0x022419d7, 0x0260857d, 0x077651f0, 0x05e0387d, 0x0d2eb499, 0x08e0025e, 0x05804c2a, 0x0c830b13, 0x0d3a77f6, 0x037f43db, 0x02f7379c, 0x08a4073d, 0x0503ad58, 0x072be0ce, 0x030c78be, 0x0e6869d1⟩⟩

/-- Entry 69, src/decaf_combs_32.rs:1262. -/
def DECAF_PRECOMP_TABLE69 : TwistedNiels :=
  ⟨⟨0x0e4ea21f, 0x0bfc5fa1, 0x0bb892e6, 0x0c21d7b6, 0x0acf0291, 0x0cf043f3, 0x049b3c90, 0x0c13f2f8, 0x0ef10891, 0x0d1a97eb, 0x0445e7fe, 0x061e130a, 0x0edbf22b, 0x019513fd, 0x03bff841, 0x01d60c81⟩,
    ⟨0x0cccf2ee, 0x06e9f475, 0x0506430c, 0x0454b9cd, 0x079ee479, 0x0224a4fb, 0x0ef0b5e2, 0x062e3347, 0x0512232a, 0x034fd2a3, 0x0f457046, 0x0b8b3cb0, 0x0daa38ec, 0x0eb20165, 0x02d9c0f7, 0x0128eebc⟩,
    ⟨0x0030fdec, 0x0e6a9e38, 0x0bc14288, 0x01c23597, 0x06356df1, 0x097156a4, 0x00daca6a, 0x0642048f, 0x07955fd4, 0x03970a6e, 0x05e3cfc6, 0x0a511e33, 0x06c85e31, 0x05486575, 0x066a6190, 0x0465f1ab⟩⟩

/-- Entry 70, src/decaf_combs_32.rs:1280. -/
def DECAF_PRECOMP_TABLE70 : TwistedNiels :=
  ⟨⟨0x0a8a8fc8, 0x03e4964f, 0x0cf41689, 0x0f6a1cdb, 0x0fe7fda7, 0x0943cb18, 0x0f34440a, 0x0606dafb, 0x0399c789, 0x05d37a86, 0x09417403, 0x0e79a2a6, 0x068b8866, 0x0fe34f7e, 0x0d2df10e, 0x011f448e⟩,
    ⟨0x0d97dfbd, 0x0c79e0b6, 0x0d2bc6e8, 0x0917c71f, 0x0cfb63d8, 0x0db7529c, 0x07f17866, 0x0be5be95, 0x0c2cdac1, 0x0a9e11fd, 0x01f44443, 0x07b91a8e, 0x0057d80f, 0x0a3065e4, 0x08d5f6d4, 0x04825f5b⟩,
    ⟨0x033e033b, 0x00e0a810, 0x0e821eab, 0x0aec986e, 0x0379273c, 0x0d1a4a48, 0x09e06304, 0x0609b79a, 0x0fe8f307, 0x0e9618b4, 0x00b50969, 0x06ffdfa5, 0x0887ac0c, 0x09530224, 0x0f0cef97, 0x020e7b36⟩⟩

/-- Entry 71, src/decaf_combs_32.rs:1298. -/
def DECAF_PRECOMP_TABLE71 : TwistedNiels :=
  ⟨⟨0x0b691713, 0x0fd579ff, 0x081c412d, 0x0b76af4f, 0x06110f82, 0x0f239de9, 0x037f0306, 0x0e965fb4, 0x06900921, 0x0ca7e943, 0x025fa24a, 0x0e487f13, 0x0e476380, 0x0633907d, 0x0c5b8ea0, 0x0721c62a⟩,
    ⟨0x03320791, 0x0b37396c, 0x075c5783, 0x0fc7b671, 0x073ecc38, 0x0c36d2cd, 0x0b328fc5, 0x080ebcc0, 0x0b35d35d, 0x043a5b22, 0x0713c9da, 0x0466c9f1, 0x0dcaa8da, 0x026ad346, 0x001183a6, 0x07c684e7⟩,
    ⟨0x0bd14b06, 0x03f2ab1a, 0x08e37230, 0x0b129a8e, 0x083d5c64, 0x048bc5b0, 0x02933a98, 0x002606c1, 0x0eec1a73, 0x0cf8051c, 0x036c3ce6, 0x0a755a88, 0x00ca4cb9, 0x02dabaa9, 0x0ddfc0f2, 0x0b6e5525⟩⟩

/-- Entry 72, src/decaf_combs_32.rs:1316. -/
def DECAF_PRECOMP_TABLE72 : TwistedNiels :=
  ⟨⟨0x08635413, 0x0c4a1fb4, 0x023ad59f, 0x0b5dd544, 0x0fd24a88, 0x09ff5d53, 0x07fc06a7, 0x03c98d26, 0x00013641, 0x02db7cb2, 0x06e191f2, 0x0bd1d671, 0x09094241, 0x06dbc8b2, 0x03dafa2c, 0x044bbf23⟩,
    ⟨0x0786ff34, 0x0dff3103, 0x0b1f20c3, 0x00144553, 0x0eb930e4, 0x095613ba, 0x075ea5d4, 0x00980582, 0x0b046756, 0x07cd1402, 0x0d58aee3, 0x074d74e4, 0x043ff69b, 0x05f93fc3, 0x0296b3b0, 0x0873df17⟩,
    ⟨0x0e0ace19, 0x0aa7c72b, 0x0fc37e4d, 0x04095d22, 0x0e3b7c61, 0x0a7d85f9, 0x04c9553c, 0x0ff21d34, 0x068e8b86, 0x0d105d62, 0x03758845, 0x00616d73, 0x07210610, 0x03ecb4ba, 0x0ddc03b7, 0x06a75e7d⟩⟩

/-- Entry 73, src/decaf_combs_32.rs:1334. -/
def DECAF_PRECOMP_TABLE73 : TwistedNiels :=
  ⟨⟨0x0db787cf, 0x07860d99, 0x0018f4a8, 0x0fda8983, 0x0ac4743c, 0x08c8866b, 0x04c82a3f, 0x0ef471f8, 0x06d3b8e7, 0x0abea597, 0x096cd015, 0x07148828, 0x084ddac5, 0x0b49fae5, 0x00b69c81, 0x08e33a1a⟩,
    ⟨0x0c06881f, 0x00a9ee23, 0x0d871945, 0x02c727d3, 0x0512d24a, 0x0f47d971, 0x0f9ef31a, 0x0671e816, 0x0faad673, 0x0883af2c, 0x083d6c9a, 0x0601f985, 0x0dc79655, 0x0b435f5a, 0x0c04bff2, 0x0ad87b71⟩,
    ⟨0x06175613, 0x084911d3, 0x027629dd, 0x0dbaa244, 0x01554fc7, 0x09b6f30b, 0x0cf7ea9e, 0x026da093, 0x08218c7c, 0x0eac4cfb, 0x04231490, 0x0c4bde07, 0x0fb62587, 0x089e5b5a, 0x0adfdbcc, 0x067fcb73⟩⟩

/-- Entry 74, src/decaf_combs_32.rs:1352. -/
def DECAF_PRECOMP_TABLE74 : TwistedNiels :=
  ⟨⟨0x02312cc3, 0x0eebfd4e, 0x04e4fc8c, 0x0474b256, 0x04b1da9b, 0x03303ef1, 0x066beb1d, 0x03c93e0e, 0x0566925a, 0x013619b0, 0x0d901bf3, 0x08817c24, 0x098d218b, 0x0b62bd88, 0x0f1e88a2, 0x075a7716⟩,
    ⟨0x0a97dd5c, 0x07f8a43d, 0x0800fc7b, 0x0058539c, 0x0a28414a, 0x040f3cf5, 0x095283d6, 0x0d68dd0d, 0x0a90146e, 0x04adce9d, 0x07d4f908, 0x0befa41c, 0x0e3c3060, 0x07603bc2, 0x0b3545db, 0x0bdf360a⟩,
    ⟨0x0e1976f0, 0x0f6de725, 0x002fda8a, 0x0d96f80a, 0x00e629fa, 0x0b25412a, 0x078fdb62, 0x0c540e7e, 0x07336d3a, 0x04ad02fb, 0x0bea5a3a, 0x04922ae1, 0x02d4bfeb, 0x026147d4, 0x0c4b94bc, 0x0d379a5b⟩⟩

/-- Entry 75, src/decaf_combs_32.rs:1370. -/
def DECAF_PRECOMP_TABLE75 : TwistedNiels :=
  ⟨⟨0x05d8fef0, 0x0c338b91, 0x0045c39a, 0x0a893292, 0x0eba6887, 0x028ab4f2, 0x0519fd61, 0x060743cb, 0x04093ac0, 0x00621396, 0x03f6266d, 0x07c0b7a4, 0x04fa5bda, 0x08e3557c, 0x0e7b8d9d, 0x02da976d⟩,
    ⟨0x09452f4c, 0x07004718, 0x01ce78d5, 0x0f7ad12e, 0x0ec44a8b, 0x0af1ba51, 0x0e667cd6, 0x05f39f63, 0x0648425e, 0x0058eac4, 0x02bea03b, 0x0d7fdab4, 0x0688de15, 0x028576a5, 0x09e77c10, 0x0af97320⟩,
    ⟨0x05749232, 0x0b78d607, 0x033b2cdc, 0x001dc47a, 0x091b24f1, 0x018c7b2e, 0x0f9876bd, 0x0b5bdc68, 0x0cba2b44, 0x013f489c, 0x066128de, 0x03b88460, 0x08884dcf, 0x03d6252c, 0x09908209, 0x0e3ae84b⟩⟩

/-- Entry 76, src/decaf_combs_32.rs:1388. -/
def DECAF_PRECOMP_TABLE76 : TwistedNiels :=
  ⟨⟨0x022d883f, 0x0aa22610, 0x048010ac, 0x0ebcca45, 0x0e28a437, 0x02528512, 0x06b66082, 0x070ca767, 0x00f7c6d3, 0x084bda17, 0x07c9b8bb, 0x0581b474, 0x0061c7e2, 0x05c96a01, 0x062b5273, 0x0fb7c4a3⟩,
    ⟨0x00f7b574, 0x06366c38, 0x09ff0438, 0x01c7d1f0, 0x001f5b22, 0x03e20a73, 0x016d28f6, 0x0d3efb19, 0x0060ce83, 0x049f4f81, 0x0a43ced1, 0x0c69d91e, 0x0cd269ed, 0x02b6f3e5, 0x0ce9ec65, 0x05b0fb22⟩,
    ⟨0x04aed2fd, 0x03cffdf1, 0x07c5b2d9, 0x09f0d77d, 0x01321d9f, 0x04812ec4, 0x0ddf0916, 0x08a1448b, 0x030175df, 0x08fef860, 0x000a76c7, 0x0e3d7032, 0x070b2094, 0x0d1babb4, 0x00e5828c, 0x09f3a43b⟩⟩

/-- Entry 77, src/decaf_combs_32.rs:1406. -/
def DECAF_PRECOMP_TABLE77 : TwistedNiels :=
  ⟨⟨0x032a093f, 0x0a947000, 0x025216e7, 0x076e96c2, 0x06e45f91, 0x0a63a431, 0x0645d3b2, 0x07d8bbb4, 0x022793eb, 0x0340a6ff, 0x0572aeb7, 0x06f935d4, 0x000afa28, 0x0b1fb69f, 0x03161ed3, 0x09e8f342⟩,
    ⟨0x0069f701, 0x0ae307cf, 0x02dd618b, 0x05859f22, 0x06ec0b0d, 0x0212d6c4, 0x02afb62d, 0x0a0fe464, 0x0a0a8903, 0x0420d8e4, 0x09bdf7b0, 0x0a80ff63, 0x090b5d8e, 0x019bee14, 0x09c27a86, 0x07439e4b⟩,
    ⟨0x04a312e8, 0x0610b639, 0x096160f5, 0x05aaa19d, 0x06138c4a, 0x08190e28, 0x0a5cd53b, 0x06538796, 0x0432a97c, 0x0fe28804, 0x01f55112, 0x07315e01, 0x0d5acb9d, 0x00bd4157, 0x09350336, 0x0d1b9546⟩⟩

/-- Entry 78, src/decaf_combs_32.rs:1424. -/
def DECAF_PRECOMP_TABLE78 : TwistedNiels :=
  ⟨⟨0x0bc4786c, 0x060db815, 0x0eedc434, 0x06fab25b, 0x0084797c, 0x0c610d06, 0x0537bec0, 0x00c48f08, 0x0c5b93da, 0x031aba51, 0x0e01f347, 0x07968fa6, 0x052840c6, 0x030070da, 0x05a4837f, 0x0c043c22⟩,
    ⟨0x0885377a, 0x051cfcc5, 0x0b1803ca, 0x0dce566c, 0x03f2c7d4, 0x0430c764, 0x037bdcc0, 0x0dce1a13, 0x0283c128, 0x010d5bd7, 0x0f9b46fe, 0x03b1b547, 0x07e770ab, 0x00f245e3, 0x0f022b37, 0x07b72511⟩,
    ⟨0x09b6116c, 0x0e4302ff, 0x01d5f02a, 0x092314b8, 0x0f30702f, 0x00d31425, 0x0e04213c, 0x04946262, 0x09b6f9ed, 0x07ead9d1, 0x0ce8989f, 0x01080a31, 0x06672a74, 0x01b632f3, 0x09645a83, 0x0a03933d⟩⟩

/-- Entry 79, src/decaf_combs_32.rs:1442. -/
def DECAF_PRECOMP_TABLE79 : TwistedNiels :=
  ⟨⟨0x026f8d3f, 0x04a29029, 0x0637ab75, 0x0ad79b42, 0x00f2d4e8, 0x088f60b9, 0x00e398c4, 0x030f54ef, 0x0f99681e, 0x0021dc9b, 0x0de74ee3, 0x07ebf66f, 0x0386e9a4, 0x04ade654, 0x06be4c27, 0x0e748506⟩,
    ⟨0x0aa0d633, 0x08940211, 0x0136571d, 0x0addae28, 0x0a20d673, 0x0d68fdbb, 0x0bc9e21a, 0x03bc6129, 0x084ebe9a, 0x00346cf1, 0x041ebc7f, 0x068774d7, 0x06966557, 0x019d5e9e, 0x0981b651, 0x003cbd7f⟩,
    ⟨0x0c67c41f, 0x0bba0ed9, 0x025ba195, 0x0b30c8e2, 0x0a5cef18, 0x08bb5762, 0x006fb7cc, 0x0e0df31b, 0x041991d5, 0x018b9121, 0x0093eac2, 0x0f6ed54e, 0x064dbbb3, 0x009e2882, 0x099b89ef, 0x0feb6632⟩⟩

/-- `DECAF_PRECOMP_TABLE`, src/decaf_combs_32.rs. -/
def DECAF_PRECOMP_TABLE : List TwistedNiels :=
  [DECAF_PRECOMP_TABLE0, DECAF_PRECOMP_TABLE1, DECAF_PRECOMP_TABLE2, DECAF_PRECOMP_TABLE3,
   DECAF_PRECOMP_TABLE4, DECAF_PRECOMP_TABLE5, DECAF_PRECOMP_TABLE6, DECAF_PRECOMP_TABLE7,
   DECAF_PRECOMP_TABLE8, DECAF_PRECOMP_TABLE9, DECAF_PRECOMP_TABLE10, DECAF_PRECOMP_TABLE11,
   DECAF_PRECOMP_TABLE12, DECAF_PRECOMP_TABLE13, DECAF_PRECOMP_TABLE14, DECAF_PRECOMP_TABLE15,
   DECAF_PRECOMP_TABLE16, DECAF_PRECOMP_TABLE17, DECAF_PRECOMP_TABLE18, DECAF_PRECOMP_TABLE19,
   DECAF_PRECOMP_TABLE20, DECAF_PRECOMP_TABLE21, DECAF_PRECOMP_TABLE22, DECAF_PRECOMP_TABLE23,
   DECAF_PRECOMP_TABLE24, DECAF_PRECOMP_TABLE25, DECAF_PRECOMP_TABLE26, DECAF_PRECOMP_TABLE27,
   DECAF_PRECOMP_TABLE28, DECAF_PRECOMP_TABLE29, DECAF_PRECOMP_TABLE30, DECAF_PRECOMP_TABLE31,
   DECAF_PRECOMP_TABLE32, DECAF_PRECOMP_TABLE33, DECAF_PRECOMP_TABLE34, DECAF_PRECOMP_TABLE35,
   DECAF_PRECOMP_TABLE36, DECAF_PRECOMP_TABLE37, DECAF_PRECOMP_TABLE38, DECAF_PRECOMP_TABLE39,
   DECAF_PRECOMP_TABLE40, DECAF_PRECOMP_TABLE41, DECAF_PRECOMP_TABLE42, DECAF_PRECOMP_TABLE43,
   DECAF_PRECOMP_TABLE44, DECAF_PRECOMP_TABLE45, DECAF_PRECOMP_TABLE46, DECAF_PRECOMP_TABLE47,
   DECAF_PRECOMP_TABLE48, DECAF_PRECOMP_TABLE49, DECAF_PRECOMP_TABLE50, DECAF_PRECOMP_TABLE51,
   DECAF_PRECOMP_TABLE52, DECAF_PRECOMP_TABLE53, DECAF_PRECOMP_TABLE54, DECAF_PRECOMP_TABLE55,
   DECAF_PRECOMP_TABLE56, DECAF_PRECOMP_TABLE57, DECAF_PRECOMP_TABLE58, DECAF_PRECOMP_TABLE59,
   DECAF_PRECOMP_TABLE60, DECAF_PRECOMP_TABLE61, DECAF_PRECOMP_TABLE62, DECAF_PRECOMP_TABLE63,
   DECAF_PRECOMP_TABLE64, DECAF_PRECOMP_TABLE65, DECAF_PRECOMP_TABLE66, DECAF_PRECOMP_TABLE67,
   DECAF_PRECOMP_TABLE68, DECAF_PRECOMP_TABLE69, DECAF_PRECOMP_TABLE70, DECAF_PRECOMP_TABLE71,
   DECAF_PRECOMP_TABLE72, DECAF_PRECOMP_TABLE73, DECAF_PRECOMP_TABLE74, DECAF_PRECOMP_TABLE75,
   DECAF_PRECOMP_TABLE76, DECAF_PRECOMP_TABLE77, DECAF_PRECOMP_TABLE78, DECAF_PRECOMP_TABLE79]

/-- `scalar_adjustment`, src/decaf_combs_32.rs:1460. -/
def scalar_adjustment : Scalar :=
  ⟨[0x4a7bb0cf, 0xc873d6d5, 0x23a70aad, 0xe933d8d7, 0x129c96fd, 0xbb124b65, 0x335dc163, 0x00000008, 0x00000000, 0x00000000, 0x00000000, 0x00000000, 0x00000000, 0x00000000], rfl⟩

end Ed448
