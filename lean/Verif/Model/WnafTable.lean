import Verif.Model.Point

/-!
# The fixed wNAF table

Generated by tools/gen_model.py from src/decaf_wnaf_table.rs.
-/

namespace Ed448

/-- Entry 0, src/decaf_wnaf_table.rs:4. -/
def DECAF_WNAF_TABLE0 : TwistedNiels :=
  ⟨⟨0x00115acd, 0x0cfc3259, 0x05c7af1b, 0x079f0e2a, 0x0b8d7332, 0x0dd94605, 0x05f5f3f3, 0x097dd6c7, 0x06156de9, 0x0d9c59e3, 0x0cde47d7, 0x0edfbfd6, 0x0f67c39a, 0x095b97c9, 0x0587debc, 0x07d7b90f⟩,
    ⟨0x00115acd, 0x0cfc3259, 0x05c7af1b, 0x079f0e2a, 0x0b8d7332, 0x0dd94605, 0x05f5f3f3, 0x017dd6c7, 0x06156de8, 0x0d9c59e3, 0x0cde47d7, 0x0edfbfd6, 0x0f67c39a, 0x095b97c9, 0x0587debc, 0x0fd7b90f⟩,
    ⟨0x0d8ae672, 0x01071dd4, 0x05f4f174, 0x04f14ebe, 0x05c34c73, 0x0e098762, 0x02c6f8c1, 0x092d0071, 0x065e980b, 0x09ef4249, 0x0369764b, 0x0a8e0cf9, 0x07b4d207, 0x00aa8190, 0x04d37924, 0x0d5002c7⟩⟩

/-- Entry 1, src/decaf_wnaf_table.rs:22. -/
def DECAF_WNAF_TABLE1 : TwistedNiels :=
  ⟨⟨0x062b8b17, 0x0f3c4efe, 0x0b6add7b, 0x01e6acc1, 0x05836df5, 0x03367ef4, 0x07a6ba53, 0x00efc2d8, 0x033964ca, 0x0405a969, 0x016357c6, 0x0572c2ae, 0x0a6a7946, 0x0a9dc34b, 0x032ad161, 0x0151831e⟩,
    ⟨0x02d1774a, 0x0315f037, 0x0960e79d, 0x07de9ed2, 0x0c198add, 0x08b3d7c4, 0x0fa57892, 0x0a5e6a45, 0x0a80115a, 0x0f32201a, 0x0a433a1a, 0x07fb9386, 0x0b291ee6, 0x0abf6960, 0x094ebc2a, 0x02d80692⟩,
    ⟨0x0ae22827, 0x0fa5e878, 0x03963bd0, 0x0d33c7bb, 0x001efac6, 0x053401a1, 0x0bce59a5, 0x063df0bc, 0x0c8b584b, 0x07bca269, 0x0978842c, 0x0611a8a9, 0x0a12b8a8, 0x0bb96e8d, 0x001d394d, 0x0e17844d⟩⟩

/-- Entry 2, src/decaf_wnaf_table.rs:40. -/
def DECAF_WNAF_TABLE2 : TwistedNiels :=
  ⟨⟨0x0e9b4d0d, 0x0c107c50, 0x0fada2f2, 0x0f6b65a5, 0x09353fae, 0x00bb67e7, 0x010ed92d, 0x018853f6, 0x036d6915, 0x08c51f4d, 0x06dd1c12, 0x0e3e9c09, 0x06cde415, 0x09d6b9ea, 0x0d66f4c6, 0x0304864d⟩,
    ⟨0x014085fb, 0x0f3123b2, 0x0ffb8f53, 0x0d005baf, 0x07dfe6ea, 0x0d160698, 0x073b018d, 0x0e825edf, 0x0829a933, 0x082aa733, 0x07830d76, 0x0c857d8d, 0x0cbbe7e6, 0x0ebdb8d2, 0x0930722e, 0x063de0e9⟩,
    ⟨0x035619ab, 0x04ffebce, 0x043365c5, 0x0d281a15, 0x03d098b8, 0x0ad17eeb, 0x0bb7806d, 0x08653b06, 0x04a28b62, 0x040026e6, 0x02ea19df, 0x0d9e06d5, 0x0856876a, 0x08e7c684, 0x01443f3b, 0x03ebbc19⟩⟩

/-- Entry 3, src/decaf_wnaf_table.rs:58. -/
def DECAF_WNAF_TABLE3 : TwistedNiels :=
  ⟨⟨0x013b8884, 0x0c0a0628, 0x036e636b, 0x054d18cc, 0x0adba51a, 0x0e4493fc, 0x0577c9cf, 0x05cda5b6, 0x05c315cf, 0x0cc16561, 0x055f17bb, 0x01bbd5e1, 0x04f18e47, 0x04dee92a, 0x0929bfb8, 0x03e95412⟩,
    ⟨0x0e1f5fb6, 0x015326f3, 0x04eb6041, 0x076886ca, 0x0ee36c23, 0x0fb34645, 0x0b8f7bb2, 0x06042a4c, 0x0403dd2f, 0x0b43e736, 0x06e7c60c, 0x0a898656, 0x004bf6d1, 0x010ea489, 0x05ddafbe, 0x08b5ae8c⟩,
    ⟨0x02faee9a, 0x03a9f4a1, 0x0a29af6b, 0x0e6ba523, 0x08ef06ef, 0x01dde79a, 0x01647314, 0x033ed436, 0x076eb1c9, 0x0b0556ae, 0x062bd092, 0x0e8b8927, 0x0705e374, 0x04709c83, 0x06f79b47, 0x077382d8⟩⟩

/-- Entry 4, src/decaf_wnaf_table.rs:76. -/
def DECAF_WNAF_TABLE4 : TwistedNiels :=
  ⟨⟨0x0ee4113d, 0x06638c5c, 0x0276ed52, 0x05c100c7, 0x0281768d, 0x0d10562e, 0x01eb2ed9, 0x008e851e, 0x0a7af373, 0x0d7cc086, 0x08eb7942, 0x0993ed52, 0x05b7df14, 0x05167762, 0x06aaa3f7, 0x029fbbcf⟩,
    ⟨0x0e396419, 0x01081503, 0x08870415, 0x07a2c7aa, 0x0af3490a, 0x0d372a4b, 0x01e18013, 0x0b18821a, 0x06c54211, 0x0b83fa87, 0x0a2ae1e9, 0x0e4bcf47, 0x0a9bf3c3, 0x069a384b, 0x0ee9d468, 0x0b784d44⟩,
    ⟨0x0c2ea1be, 0x0b4e3ad7, 0x0cf7008a, 0x09962715, 0x0c089d5e, 0x0fbc6fdc, 0x0c349313, 0x01e29847, 0x09b3874d, 0x0c114556, 0x09a1499b, 0x094f5006, 0x08f423c8, 0x04cec2bb, 0x04c34627, 0x077eb003⟩⟩

/-- Entry 5, src/decaf_wnaf_table.rs:94. -/
def DECAF_WNAF_TABLE5 : TwistedNiels :=
  ⟨⟨0x09b21a44, 0x08f00d27, 0x09c8116a, 0x0a5c8114, 0x0a721e9f, 0x0cc8be3d, 0x0e6770b9, 0x01935a34, 0x0d5db99d, 0x0e315426, 0x0aff01bf, 0x0cf6a842, 0x0016ed3a, 0x0e3cc9d5, 0x0098742d, 0x0ae78776⟩,
    ⟨0x0197248f, 0x068db473, 0x02ff90c2, 0x089874a1, 0x03f5428c, 0x0420b476, 0x0fb38392, 0x0d668b71, 0x0d3c3687, 0x022279b6, 0x005cf566, 0x03a58014, 0x04b4fd44, 0x0127b8ea, 0x0208fb79, 0x0ce6a975⟩,
    ⟨0x09d44238, 0x0797ca03, 0x05b6ef5e, 0x063cae93, 0x072ff87c, 0x06a938e0, 0x009cdca0, 0x06a38703, 0x05fa3ddc, 0x00380094, 0x0728b5ad, 0x032274c0, 0x0217da91, 0x053a51e9, 0x012b79db, 0x0162b417⟩⟩

/-- Entry 6, src/decaf_wnaf_table.rs:112. -/
def DECAF_WNAF_TABLE6 : TwistedNiels :=
  ⟨⟨0x0768bdc6, 0x00911f06, 0x0f82c5b0, 0x0bd27650, 0x07bcb94a, 0x07b94801, 0x0572c65e, 0x095de039, 0x0be00d25, 0x053743da, 0x088cd8cd, 0x092b1d58, 0x0b33c0d0, 0x065c6496, 0x05bfb370, 0x07a3f55d⟩,
    ⟨0x0fa20d27, 0x03f31eeb, 0x0d6c2849, 0x0b1c0c84, 0x01e53924, 0x0dbefe8d, 0x0407ebc2, 0x0472400b, 0x02a91498, 0x0c584bf6, 0x02010650, 0x0c1f095f, 0x0c9ba41e, 0x07e3b1b2, 0x04ed89dc, 0x03189f89⟩,
    ⟨0x05de7ab7, 0x04d9eefe, 0x0bdbd884, 0x03e35169, 0x08822d97, 0x079625f5, 0x07137c15, 0x043f4f60, 0x0717d455, 0x029efd80, 0x06623198, 0x055b37a6, 0x0460c01e, 0x0153cecd, 0x0e396a2d, 0x00464f30⟩⟩

/-- Entry 7, src/decaf_wnaf_table.rs:130. -/
def DECAF_WNAF_TABLE7 : TwistedNiels :=
  ⟨⟨0x05dc4b6e, 0x057b2837, 0x07974d80, 0x0771e655, 0x0c187316, 0x0fa6792b, 0x0f9f92d7, 0x00d7fed0, 0x0efdb64b, 0x0e821281, 0x04dc5064, 0x0a12bf7b, 0x0fa9bb8d, 0x0464f56b, 0x03114e0b, 0x0526fa93⟩,
    ⟨0x0aaed0f2, 0x0bcf86d6, 0x09e8a71f, 0x0b95ff67, 0x057f8c87, 0x0c11d7bd, 0x0d671b05, 0x0cb3362e, 0x02ce4c10, 0x068bb14b, 0x099af32f, 0x05053136, 0x0ec89e51, 0x05376e4c, 0x0d918f75, 0x0179b292⟩,
    ⟨0x08018aa1, 0x0246e4ca, 0x04eaca63, 0x05e55abb, 0x0fe6aa8b, 0x050b6ce5, 0x001ee510, 0x08979edb, 0x08461080, 0x02e152c3, 0x07f073ea, 0x0550a03a, 0x0b811e13, 0x018d841e, 0x0ea88479, 0x0c39e3e1⟩⟩

/-- Entry 8, src/decaf_wnaf_table.rs:148. -/
def DECAF_WNAF_TABLE8 : TwistedNiels :=
  ⟨⟨0x064f8cc7, 0x07f12643, 0x0ba2d9ad, 0x00315388, 0x0a0d3396, 0x07562aa0, 0x00cfe53a, 0x069318d2, 0x0868b277, 0x00acdcd1, 0x0518c6b8, 0x08e8d738, 0x0da8f887, 0x06faf89f, 0x077c4e4d, 0x0347e302⟩,
    ⟨0x07cddf30, 0x062c0356, 0x037ac23b, 0x032ee534, 0x062d80e2, 0x0e8a6fbf, 0x07f7d7fd, 0x02de8996, 0x04d7c736, 0x005fedae, 0x0264ae39, 0x022d685f, 0x0fba7df5, 0x028936d3, 0x0b936fcc, 0x0acb4383⟩,
    ⟨0x015c8c25, 0x0afee552, 0x03769fcb, 0x0c57a871, 0x0a05928e, 0x00df59ac, 0x01a57830, 0x0aead2ce, 0x019735cd, 0x0d453e37, 0x04b3ec7e, 0x04f1cdc2, 0x082a51da, 0x00e2a694, 0x06834b1f, 0x0151ba7f⟩⟩

/-- Entry 9, src/decaf_wnaf_table.rs:166. -/
def DECAF_WNAF_TABLE9 : TwistedNiels :=
  ⟨⟨0x09954173, 0x03eaec32, 0x0ee76bb2, 0x0fec61fe, 0x07f7f444, 0x09b54434, 0x0db8cebd, 0x04c4f7df, 0x0a25dbfb, 0x039d610d, 0x0ef26480, 0x00f513cc, 0x0b8d2732, 0x0af4ddd8, 0x0d2be04b, 0x0093756d⟩,
    ⟨0x0064f2de, 0x06df537f, 0x0cbfedb9, 0x007f0808, 0x064aa829, 0x0792c87b, 0x0e848ad1, 0x0fd42b4c, 0x06c5bd43, 0x04d9b9c6, 0x058c4ed6, 0x0df8fbdd, 0x0fc7f34c, 0x0cbe5355, 0x02995e4d, 0x0abe6eb2⟩,
    ⟨0x0d9484e0, 0x0ef8a330, 0x0ce8fbcc, 0x044944de, 0x0d9d2586, 0x016b6e52, 0x02d2c7b3, 0x0610b0b7, 0x08990f61, 0x0766d88f, 0x0494eefe, 0x0ea7bc69, 0x09360110, 0x050c0798, 0x0fd96ee7, 0x0db9fc3b⟩⟩

/-- Entry 10, src/decaf_wnaf_table.rs:184. -/
def DECAF_WNAF_TABLE10 : TwistedNiels :=
  ⟨⟨0x0096c6b8, 0x069991db, 0x0d962ba0, 0x008ebcee, 0x02f37ae3, 0x0ef0053e, 0x08c9cb68, 0x09917f3c, 0x0ef39f4e, 0x00e0b52f, 0x07b8f008, 0x0ea378bf, 0x0388995b, 0x09ae2a16, 0x028ee921, 0x07ec77e6⟩,
    ⟨0x0ce6ad83, 0x062284ce, 0x07278c56, 0x0e18536b, 0x010698c5, 0x005ab4b9, 0x0a4fd019, 0x09910472, 0x06d75150, 0x08ab4e2c, 0x08d59094, 0x0fbd9d53, 0x05914fd9, 0x086482b6, 0x0cabfefd, 0x0ced958a⟩,
    ⟨0x03a8dac4, 0x0c6cb4ee, 0x00de0b91, 0x010cf712, 0x085e9e67, 0x01ab1663, 0x0a89b19c, 0x07f2a8ec, 0x06b943da, 0x08ae3d84, 0x0b161ed6, 0x022c7631, 0x0e327b23, 0x05e5d402, 0x0aeb64cd, 0x0d0518c1⟩⟩

/-- Entry 11, src/decaf_wnaf_table.rs:202. -/
def DECAF_WNAF_TABLE11 : TwistedNiels :=
  ⟨⟨0x0be55ebb, 0x00d45c95, 0x0b911e70, 0x05f3dd26, 0x065eb066, 0x07551710, 0x04e644c9, 0x0110b286, 0x02d84e02, 0x0718a31c, 0x0c4d65d8, 0x059a255f, 0x07b14eba, 0x026337c9, 0x033d128b, 0x061e127f⟩,
    ⟨0x0004b322, 0x06ee9a82, 0x03aac2f9, 0x03eff483, 0x013b9833, 0x0bb62f8a, 0x0439b18f, 0x08f9deff, 0x0842de17, 0x0bc30790, 0x04868215, 0x00bfe23b, 0x0d09d19a, 0x0addb504, 0x04a5bd41, 0x02e121c0⟩,
    ⟨0x0e668677, 0x04126ac2, 0x0a5dbed7, 0x046c12e8, 0x0c049c9a, 0x078e3a69, 0x0feb5878, 0x035d20df, 0x0f4cbcdc, 0x00a263e2, 0x07e724f5, 0x0090a6bd, 0x0b6366f9, 0x0b33f6e0, 0x09f40060, 0x0175e775⟩⟩

/-- Entry 12, src/decaf_wnaf_table.rs:220. -/
def DECAF_WNAF_TABLE12 : TwistedNiels :=
  ⟨⟨0x05838c18, 0x083b4b83, 0x0fc68cb4, 0x0ac69dde, 0x0f1ba281, 0x0749b220, 0x0d7a193d, 0x04052a50, 0x0a4e5e56, 0x07138ee3, 0x0edc8067, 0x03099ccf, 0x0e9aaed9, 0x06e811c0, 0x08101227, 0x0bead0cc⟩,
    ⟨0x0fcd0517, 0x0cd3889d, 0x0d1f43de, 0x01bf78dc, 0x0491727a, 0x00898cbb, 0x0893d55d, 0x0440c964, 0x091ea8f2, 0x075e0b93, 0x087fc960, 0x0ec97326, 0x02f86bcf, 0x08ca65c6, 0x0d6debcb, 0x0fc9b9ae⟩,
    ⟨0x06cfa255, 0x0f838123, 0x0d8c8fe3, 0x0f5999b0, 0x0a1dff4e, 0x00918786, 0x032db8c1, 0x0a2fa461, 0x0379a878, 0x0eb0a0e8, 0x0990566a, 0x03802d2e, 0x07147f1f, 0x0b6c65d2, 0x06bd3e66, 0x0ddbb45f⟩⟩

/-- Entry 13, src/decaf_wnaf_table.rs:238. -/
def DECAF_WNAF_TABLE13 : TwistedNiels :=
  ⟨⟨0x0ee1c67a, 0x00f68a71, 0x029b052c, 0x0e961024, 0x02925329, 0x01777648, 0x01577df6, 0x0ca322a7, 0x079280b5, 0x04325b8a, 0x0d786f77, 0x0c322234, 0x07816ab4, 0x0e9258fe, 0x016d5532, 0x06aa915d⟩,
    ⟨0x00fd9d30, 0x0cde1898, 0x09350971, 0x0d1a8288, 0x0eb0fbc8, 0x040d36b7, 0x05329dd0, 0x03cc6e69, 0x08e1d88e, 0x0e24b331, 0x0459111d, 0x0e212a22, 0x0eaab372, 0x0879f754, 0x0489c9a4, 0x0f9801f5⟩,
    ⟨0x02e00768, 0x07354e94, 0x03208ac0, 0x04c7668d, 0x0b92023f, 0x015712e1, 0x0b3a760b, 0x0b018106, 0x07fa130b, 0x0d475164, 0x06d78b5a, 0x0da3f727, 0x072bb3b3, 0x0dc6c716, 0x03540963, 0x008a6ecb⟩⟩

/-- Entry 14, src/decaf_wnaf_table.rs:256. -/
def DECAF_WNAF_TABLE14 : TwistedNiels :=
  ⟨⟨0x0c26a6f1, 0x0e13a624, 0x03c0e7d2, 0x0e161c0e, 0x03d354eb, 0x0ba563c1, 0x0d51498c, 0x0f7e67a8, 0x09742e97, 0x088c48bf, 0x05c6abcb, 0x0edaca15, 0x0c4448b5, 0x0bb24561, 0x038b42f1, 0x0d045b2c⟩,
    ⟨0x0871b4c4, 0x093d57b9, 0x032e7970, 0x085e6b55, 0x00bdb89e, 0x012fdda5, 0x06c39b47, 0x025f590d, 0x039585e6, 0x0ef9d53a, 0x0575110b, 0x0cf0a88a, 0x0894850f, 0x0fd53552, 0x09c5a860, 0x0bef4702⟩,
    ⟨0x01996dd3, 0x0bd40f70, 0x044b6173, 0x0cce7470, 0x0fb55eb3, 0x028a6b9f, 0x04bd40e3, 0x009fea79, 0x06ed0198, 0x038b30e2, 0x08b4cf52, 0x05434c96, 0x0f362d47, 0x0814878d, 0x042b207a, 0x060ab548⟩⟩

/-- Entry 15, src/decaf_wnaf_table.rs:274. -/
def DECAF_WNAF_TABLE15 : TwistedNiels :=
  ⟨⟨0x0479e8ae, 0x0bd19d97, 0x06aff3e9, 0x0f722fb9, 0x0cc75c02, 0x04ae4a83, 0x07a30094, 0x033bb682, 0x0a83cb5a, 0x0d0ec294, 0x00cfeefa, 0x07c9ad15, 0x0b336c57, 0x033cbbd6, 0x07ef1d8f, 0x09f0b2fd⟩,
    ⟨0x0708c7d9, 0x0246036b, 0x09127116, 0x00574c8b, 0x0550414d, 0x0ecd349a, 0x0186da47, 0x03c900c0, 0x0cac2d00, 0x07c82512, 0x0f99830b, 0x01399e41, 0x0d16fdfb, 0x0a414712, 0x01a9b698, 0x02882296⟩,
    ⟨0x0c32ae74, 0x0576abc9, 0x0b433484, 0x052e8eed, 0x052551ff, 0x09a0b95b, 0x05691aff, 0x0e4e5a4d, 0x07dccd79, 0x0bc01db0, 0x051e0d3c, 0x09966927, 0x09be9606, 0x03acf0cd, 0x083095a8, 0x03f06d2f⟩⟩

/-- Entry 16, src/decaf_wnaf_table.rs:292. -/
def DECAF_WNAF_TABLE16 : TwistedNiels :=
  ⟨⟨0x0a1ff7bb, 0x028c4051, 0x0904a0ad, 0x040ba689, 0x0acec321, 0x09e4b0a5, 0x0c46aaeb, 0x0bc6d2b3, 0x0ef88adb, 0x0f2caae4, 0x0f11a28e, 0x0ff6677b, 0x0fbb7484, 0x092191cb, 0x0b78a291, 0x0dae55af⟩,
    ⟨0x07ea26bc, 0x0c95aa39, 0x0066c24c, 0x07372e21, 0x0008ce70, 0x0d1f1e17, 0x06d24ff5, 0x0277c5b4, 0x051cc6f8, 0x0d0a187e, 0x0dca3f92, 0x0e58d524, 0x0c916355, 0x00d1a618, 0x0cfce6eb, 0x0e5b4a71⟩,
    ⟨0x0d853cbd, 0x0c40cbcb, 0x09bd473a, 0x0523f587, 0x08a57ceb, 0x0fc476ce, 0x01a8fc43, 0x09e5cb52, 0x048e29cc, 0x015c1574, 0x0e0e673d, 0x041f2065, 0x03e9ca04, 0x0b922718, 0x02da2a1a, 0x00eadc02⟩⟩

/-- Entry 17, src/decaf_wnaf_table.rs:310. -/
def DECAF_WNAF_TABLE17 : TwistedNiels :=
  ⟨⟨0x0d8c08f2, 0x0d6313aa, 0x08a39cbf, 0x08fbb11d, 0x06cfea1d, 0x0bf09c85, 0x024a5516, 0x0cc74487, 0x09ecdeb7, 0x0eb6e4d5, 0x0019421c, 0x05eda293, 0x0e457996, 0x0a0853a9, 0x0c045530, 0x0e2a1515⟩,
    ⟨0x03622bf9, 0x09cc09c0, 0x0f1fb5bc, 0x018ec007, 0x0f0d29de, 0x09f39168, 0x0f20e76e, 0x05a83280, 0x0af9af43, 0x00dbf95a, 0x0102397b, 0x04f9bd6f, 0x0b2e86e9, 0x0e154feb, 0x0c3d6c54, 0x032ea079⟩,
    ⟨0x0a1c41ce, 0x0fab169c, 0x01d78d41, 0x0f1bc0ce, 0x01cc67be, 0x02fa4e36, 0x027e0267, 0x09053af4, 0x015144f5, 0x032387ad, 0x0f9e66e4, 0x0b00ae64, 0x0f82b37a, 0x06f6617e, 0x0c95b59e, 0x0d8c1db3⟩⟩

/-- Entry 18, src/decaf_wnaf_table.rs:328. -/
def DECAF_WNAF_TABLE18 : TwistedNiels :=
  ⟨⟨0x00c7799c, 0x03517550, 0x0a225e38, 0x0a167c5c, 0x0271c80b, 0x0854efcf, 0x0a2fcd01, 0x01b76bf0, 0x00cf4ccd, 0x095c9061, 0x06a738a8, 0x064190fc, 0x0456ebff, 0x079dce31, 0x07dc1855, 0x0742f084⟩,
    ⟨0x0e10d3b9, 0x0f8f4bbb, 0x07fe5ef6, 0x0105a4fd, 0x0119b520, 0x040f473c, 0x0cbad167, 0x075981f4, 0x0d05858a, 0x0e6e94e0, 0x0009323c, 0x0287e587, 0x081a36e6, 0x0797d31a, 0x02def25c, 0x033eef62⟩,
    ⟨0x010a5ba5, 0x03077e14, 0x018390d3, 0x0b141587, 0x0630d95f, 0x06f256df, 0x0388a47b, 0x021d4d1b, 0x03c3ea50, 0x08e29fce, 0x00e8828f, 0x02616d81, 0x0dc76902, 0x076b1173, 0x0e1be552, 0x01c4c4bf⟩⟩

/-- Entry 19, src/decaf_wnaf_table.rs:346. -/
def DECAF_WNAF_TABLE19 : TwistedNiels :=
  ⟨⟨0x0c024d24, 0x0a2657ca, 0x0739670f, 0x0aa33dfb, 0x069a8de7, 0x0093b537, 0x08c0514d, 0x0adafcb2, 0x0425c381, 0x0bca8890, 0x0dcdc343, 0x08f15ace, 0x0b2f9604, 0x085efa2b, 0x02387955, 0x09243729⟩,
    ⟨0x0979be8f, 0x0dfb010d, 0x0a211f07, 0x07e6d963, 0x01368699, 0x0404b8ec, 0x00cb2087, 0x0d9cc659, 0x0389e23c, 0x0e0d919b, 0x0cec349f, 0x01001c50, 0x0c709fe4, 0x01e848fe, 0x026121a1, 0x00e91e33⟩,
    ⟨0x032c6b13, 0x0e8300e6, 0x0f6dda78, 0x0010847e, 0x0f200ab7, 0x019b7c68, 0x0978bd9b, 0x0220c952, 0x0dc0331c, 0x019e887a, 0x036c4db5, 0x06c5993f, 0x0b248079, 0x002c98ee, 0x0231d922, 0x089ad282⟩⟩

/-- Entry 20, src/decaf_wnaf_table.rs:364. -/
def DECAF_WNAF_TABLE20 : TwistedNiels :=
  ⟨⟨0x00606614, 0x05981183, 0x0a0d0097, 0x0a8ec4d8, 0x07beaec2, 0x00e2ac95, 0x0fdb8ed1, 0x07dc4a64, 0x0f2c7312, 0x063b9462, 0x055d282b, 0x0324ea6a, 0x0dc26507, 0x07c8a4cb, 0x09268708, 0x0f54f4ae⟩,
    ⟨0x045ed7bc, 0x026d3128, 0x08e17918, 0x05156388, 0x0ccab084, 0x0b99c696, 0x0957f3b8, 0x059d7244, 0x08c8d6ab, 0x0c5f4faf, 0x04ba3f26, 0x0bdeeec5, 0x0c9d5485, 0x01aba0f7, 0x04b29269, 0x0d731f78⟩,
    ⟨0x03aef4f0, 0x0bd7234c, 0x05db44b1, 0x0a7a9f81, 0x09fc9785, 0x0c8c940e, 0x03b01c38, 0x03b81a97, 0x0d7b79f9, 0x0c32ffd7, 0x0c46e6c6, 0x0bc5b783, 0x0ef6a5f9, 0x0b003fb1, 0x0c2b46e7, 0x05b36765⟩⟩

/-- Entry 21, src/decaf_wnaf_table.rs:382. -/
def DECAF_WNAF_TABLE21 : TwistedNiels :=
  ⟨⟨0x0659a719, 0x030b09f9, 0x0a6bc959, 0x0ac35ad7, 0x081c1ee8, 0x09b466b2, 0x05f80acb, 0x034b9646, 0x066162b7, 0x0304970c, 0x053e3918, 0x00f23472, 0x0ac74c5a, 0x00d54980, 0x0875468a, 0x0aaabb0e⟩,
    ⟨0x01bd6085, 0x0578872f, 0x06efa597, 0x0b3fd4fa, 0x0f625c00, 0x0e99ac49, 0x0e5ed2d8, 0x02aef842, 0x0588e353, 0x04b8f706, 0x0dfcc096, 0x0449c499, 0x0bf18dea, 0x08d0cddd, 0x06396ddd, 0x0e6bba4a⟩,
    ⟨0x07a2ac73, 0x066485d9, 0x0483ffe7, 0x01d0e768, 0x01b7251c, 0x0c525373, 0x0a3af3f3, 0x0f76d892, 0x085298e7, 0x0e8d035f, 0x0abf961a, 0x034e58d0, 0x0ccaba4c, 0x0b11bd0e, 0x0ec9d0e9, 0x087a079a⟩⟩

/-- Entry 22, src/decaf_wnaf_table.rs:400. -/
def DECAF_WNAF_TABLE22 : TwistedNiels :=
  ⟨⟨0x0d2e2026, 0x0d38488b, 0x079dc3fe, 0x0d35414e, 0x01fbbbb9, 0x0faa0a1c, 0x0b10ab45, 0x093df0c4, 0x01394c9f, 0x039ffebe, 0x00e5cd5c, 0x0cab0bc8, 0x05cadf06, 0x0453b9db, 0x0b56f96e, 0x03b7c08c⟩,
    ⟨0x07af61ee, 0x0b63453c, 0x0a2bd320, 0x0eadcbaf, 0x0a7bf0e3, 0x086b04f4, 0x0bbfba5a, 0x0b69bc8c, 0x0b1b064e, 0x0ce4926b, 0x053e0a27, 0x04df8ce7, 0x0580a3a2, 0x0ff37bf2, 0x05a377eb, 0x0ad90c8c⟩,
    ⟨0x0bdd6e72, 0x0ac58c82, 0x078a79da, 0x008035e2, 0x02524fb3, 0x03c9fcc9, 0x0ea75e47, 0x00c71c26, 0x0e717b38, 0x09631c4b, 0x035e9152, 0x0a2e9681, 0x0a131ec2, 0x0074295c, 0x0d4a5015, 0x0877a203⟩⟩

/-- Entry 23, src/decaf_wnaf_table.rs:418. -/
def DECAF_WNAF_TABLE23 : TwistedNiels :=
  ⟨⟨0x0002be26, 0x0a49896f, 0x020ae906, 0x0ad6b0d7, 0x0bed0346, 0x05786d8d, 0x0592e372, 0x0f6749d6, 0x0faf79a4, 0x00542c37, 0x05c7863a, 0x03281a4f, 0x0ef0cbdc, 0x0eacdc7d, 0x0fe160bd, 0x0ca8353e⟩,
    ⟨0x0d9f8893, 0x03c9e851, 0x0696dd28, 0x04df23c1, 0x0db98f95, 0x05e587fd, 0x0adbfdbb, 0x0359afa5, 0x026e687c, 0x0ddb949d, 0x0285564c, 0x0ebc6efd, 0x0619bdd3, 0x01750eec, 0x0ad0d4fa, 0x037772e4⟩,
    ⟨0x0bbbb048, 0x076e84ba, 0x0681bbe4, 0x00a6db83, 0x07eaead2, 0x059dff59, 0x09fe2dab, 0x0f65bdd7, 0x0a642c8a, 0x0e3fc9fa, 0x0fc634c9, 0x08a9cc9d, 0x028b1cd4, 0x0428a4b7, 0x03cb6617, 0x0e80aea5⟩⟩

/-- Entry 24, src/decaf_wnaf_table.rs:436. -/
def DECAF_WNAF_TABLE24 : TwistedNiels :=
  ⟨⟨0x0f7d2bd3, 0x02ab17fd, 0x03183393, 0x05aa55f2, 0x0f8c0eb9, 0x09b88469, 0x014bca6b, 0x07d101b3, 0x05fd97b9, 0x056dd434, 0x0548ae7d, 0x0880e62e, 0x087b91a6, 0x03d44d8c, 0x086e22cc, 0x0fb28113⟩,
    ⟨0x001be3a5, 0x0eacd580, 0x0ca72940, 0x014e1231, 0x04987584, 0x02245338, 0x0c37be5c, 0x075848f0, 0x0d82c0b2, 0x00e6dc40, 0x0270878c, 0x0f4d8ec1, 0x06fb86fd, 0x0550981d, 0x0f4c6892, 0x0bb66b58⟩,
    ⟨0x057e297f, 0x0bba772e, 0x0df71b07, 0x04f56f68, 0x0af23a81, 0x0ded9fac, 0x0d78eedc, 0x0d78e832, 0x0ff02685, 0x004f7c3e, 0x01f9c020, 0x0ba5fa93, 0x0b2295be, 0x05a29fb4, 0x045b1dc9, 0x0e2543f7⟩⟩

/-- Entry 25, src/decaf_wnaf_table.rs:454. -/
def DECAF_WNAF_TABLE25 : TwistedNiels :=
  ⟨⟨0x052580f9, 0x07121776, 0x021d1eca, 0x0e9ee16e, 0x075b8e46, 0x002465ba, 0x0fc8ef2e, 0x0a9cb7b1, 0x0da1cf8e, 0x0ce337e6, 0x0507fffa, 0x09d3684c, 0x05d71214, 0x0058cc11, 0x0e144377, 0x017dba81⟩,
    ⟨0x07285805, 0x03b778e6, 0x04ba87b5, 0x0dbb0670, 0x0a5ea2fe, 0x0ba6ee1e, 0x08b3f699, 0x0e2cdc2c, 0x0ae69a9c, 0x06983c6e, 0x02d0c398, 0x0c6c8c54, 0x0bcedbdc, 0x0f2d3a9e, 0x0abbd31c, 0x0be30dde⟩,
    ⟨0x016490a6, 0x095f20a0, 0x09fbf26d, 0x05f2b00b, 0x0906cdaf, 0x0b583124, 0x0a473ca8, 0x02e2077a, 0x07902fa6, 0x018c5b9f, 0x029201a6, 0x0b704f52, 0x00e4b1c2, 0x0e1fc5d7, 0x0ccf7289, 0x0578e366⟩⟩

/-- Entry 26, src/decaf_wnaf_table.rs:472. -/
def DECAF_WNAF_TABLE26 : TwistedNiels :=
  ⟨⟨0x0e1d579d, 0x0932127b, 0x00f54904, 0x0e6729f5, 0x07f618af, 0x0e70f624, 0x09fe9d9c, 0x0b195398, 0x0df69633, 0x015032e9, 0x05cb6e82, 0x0d3687b3, 0x06869218, 0x0ab0fff8, 0x0a68ddfb, 0x026054a3⟩,
    ⟨0x0e899137, 0x0cf244d2, 0x0ec7aaa1, 0x0a793f52, 0x016e3883, 0x02e5cb06, 0x0f176feb, 0x09cbf752, 0x0fa090a3, 0x029edce4, 0x060a0275, 0x0f6540a9, 0x0ef0e3bc, 0x0513985e, 0x0f6c7228, 0x0ce2e586⟩,
    ⟨0x0dbc757c, 0x0b42f011, 0x04f07c42, 0x04a8e19d, 0x0318b7ff, 0x0a6d7828, 0x09ba3c0f, 0x004c9ce4, 0x08087b6a, 0x05fe7168, 0x0a3d84ed, 0x06e1d8f9, 0x0e8e9a1f, 0x089693e7, 0x03ba45c5, 0x073bf418⟩⟩

/-- Entry 27, src/decaf_wnaf_table.rs:490. -/
def DECAF_WNAF_TABLE27 : TwistedNiels :=
  ⟨⟨0x05530d30, 0x029e8ce3, 0x0f61fe3a, 0x0d20f389, 0x0f74e1d4, 0x0cf9e8dd, 0x004d4979, 0x04bec01b, 0x06fd5ddd, 0x07d92c9f, 0x01981808, 0x0c072fa9, 0x0e8a1676, 0x09afda4f, 0x0e879a14, 0x0c96522e⟩,
    ⟨0x0d83497b, 0x05f0cd9c, 0x08d97f00, 0x0e382f09, 0x004eed2e, 0x073e37e0, 0x08b12237, 0x00707fe9, 0x0b73d561, 0x016d92a2, 0x0b390165, 0x0a42926a, 0x0b1cc8fc, 0x0b394db4, 0x0f6efa33, 0x02fa14a3⟩,
    ⟨0x013d05ee, 0x055076a5, 0x0cec14ad, 0x0f076d43, 0x0252faf4, 0x0a4e386b, 0x09b313eb, 0x0c0713b7, 0x02f46f19, 0x0507efa7, 0x07c66844, 0x0141bc1e, 0x060c19ea, 0x05629ef0, 0x03d1772c, 0x08532711⟩⟩

/-- Entry 28, src/decaf_wnaf_table.rs:508. -/
def DECAF_WNAF_TABLE28 : TwistedNiels :=
  ⟨⟨0x08514e35, 0x0ed49010, 0x0e6b4958, 0x06bed897, 0x00dc546c, 0x000f2cae, 0x0e5008e4, 0x08175eb3, 0x0f3aed42, 0x093e3fe8, 0x0fd54d1a, 0x0e9dbc15, 0x04cfc0c1, 0x0844979a, 0x064ea60b, 0x0ea3194d⟩,
    ⟨0x0ec7ed5c, 0x0b64d054, 0x0329fbce, 0x07b924cd, 0x08737293, 0x0fe8805a, 0x052b43ae, 0x0fb82f1d, 0x072e1a76, 0x04ea745c, 0x02861c0c, 0x095ba255, 0x03547784, 0x0f66846c, 0x005dc23c, 0x03b815bd⟩,
    ⟨0x0d197ef7, 0x0669e32f, 0x05e2f7c9, 0x01dfca2c, 0x04a1e5e2, 0x0a2ae096, 0x05c91232, 0x0b4334b1, 0x05110d96, 0x09641958, 0x02172a58, 0x09c0b226, 0x0f6d35ca, 0x09d7c87c, 0x0d3cabf6, 0x08a5ce50⟩⟩

/-- Entry 29, src/decaf_wnaf_table.rs:526. -/
def DECAF_WNAF_TABLE29 : TwistedNiels :=
  ⟨⟨0x0cf73530, 0x0888b9c1, 0x06afecd2, 0x0375346c, 0x035b74d3, 0x0142240b, 0x0f86a5f5, 0x0d952835, 0x058eaf9a, 0x00665c26, 0x062b2033, 0x0f29f430, 0x05bc85f9, 0x0a19a58c, 0x0724a937, 0x0e62ac95⟩,
    ⟨0x0e9d1730, 0x03bedc9a, 0x04cbc775, 0x0fedd7c0, 0x0540c61d, 0x0c19abc4, 0x057fb687, 0x0115294c, 0x0174cd8f, 0x0663fceb, 0x02b885b0, 0x01671f57, 0x0ed85978, 0x02d14694, 0x078a8e44, 0x01272820⟩,
    ⟨0x0aa72eca, 0x0e6d2822, 0x0cdc0058, 0x0d832957, 0x0ed23e18, 0x0dc60e5b, 0x018b03a3, 0x0b94b4c4, 0x0410a430, 0x0df3b85d, 0x00bc79d4, 0x055e81b7, 0x09cbd1a0, 0x0081d936, 0x0cf0c656, 0x0f7fee3a⟩⟩

/-- Entry 30, src/decaf_wnaf_table.rs:544. -/
def DECAF_WNAF_TABLE30 : TwistedNiels :=
  ⟨⟨0x0b5abffb, 0x03baba41, 0x0fca8193, 0x0661ee09, 0x0e6aea59, 0x0e0c6c92, 0x0bcbe591, 0x0886c207, 0x098e8004, 0x0aef9e77, 0x0f4d707a, 0x0164f599, 0x076d21f2, 0x0bb1597a, 0x0e025626, 0x0fda82d5⟩,
    ⟨0x09640f0e, 0x0552b53a, 0x0f4d88bf, 0x05985236, 0x065a8ae5, 0x0b7aaec9, 0x0b5ccf95, 0x0cedada7, 0x088f1902, 0x07b1ea20, 0x08b4a7fa, 0x028445e3, 0x0c50efed, 0x057f10dd, 0x047bc5cb, 0x07637a31⟩,
    ⟨0x0db53757, 0x08174fe4, 0x0a35ecc8, 0x0930c4f4, 0x01c95a8f, 0x00e9f82c, 0x07d66e5e, 0x0c648054, 0x09a7bf39, 0x0dce888f, 0x022cb906, 0x06671a50, 0x0b5337a0, 0x04823c19, 0x07fec529, 0x0455338b⟩⟩

/-- Entry 31, src/decaf_wnaf_table.rs:562. -/
def DECAF_WNAF_TABLE31 : TwistedNiels :=
  ⟨⟨0x0dc45964, 0x05ac123f, 0x02221d17, 0x0395057c, 0x0cf84eb1, 0x03c09c74, 0x0bbebf9d, 0x0b5ca859, 0x04a7d235, 0x01b26b27, 0x08e96a48, 0x0e8c6350, 0x051d721e, 0x0edbce4d, 0x097d6f83, 0x0c494367⟩,
    ⟨0x088a7f40, 0x071595be, 0x01c0fc87, 0x0a05e6ac, 0x038b29eb, 0x0a01bf65, 0x0b881fb8, 0x0badcd80, 0x08049f8b, 0x05bfe7af, 0x0ae35537, 0x084918e6, 0x0759316e, 0x0ed4bd54, 0x08d6b548, 0x07f13598⟩,
    ⟨0x01e06629, 0x075656c4, 0x03396637, 0x086059d8, 0x0b457b37, 0x04f304ec, 0x0db6be65, 0x0e3b4887, 0x063bb0be, 0x020b54c2, 0x03e561c3, 0x060a6919, 0x00dc8ce9, 0x0e6863f2, 0x056e6478, 0x0afe16ac⟩⟩

/-- `DECAF_WNAF_TABLE`, src/decaf_wnaf_table.rs. -/
def DECAF_WNAF_TABLE : List TwistedNiels :=
  [DECAF_WNAF_TABLE0, DECAF_WNAF_TABLE1, DECAF_WNAF_TABLE2, DECAF_WNAF_TABLE3,
   DECAF_WNAF_TABLE4, DECAF_WNAF_TABLE5, DECAF_WNAF_TABLE6, DECAF_WNAF_TABLE7,
   DECAF_WNAF_TABLE8, DECAF_WNAF_TABLE9, DECAF_WNAF_TABLE10, DECAF_WNAF_TABLE11,
   DECAF_WNAF_TABLE12, DECAF_WNAF_TABLE13, DECAF_WNAF_TABLE14, DECAF_WNAF_TABLE15,
   DECAF_WNAF_TABLE16, DECAF_WNAF_TABLE17, DECAF_WNAF_TABLE18, DECAF_WNAF_TABLE19,
   DECAF_WNAF_TABLE20, DECAF_WNAF_TABLE21, DECAF_WNAF_TABLE22, DECAF_WNAF_TABLE23,
   DECAF_WNAF_TABLE24, DECAF_WNAF_TABLE25, DECAF_WNAF_TABLE26, DECAF_WNAF_TABLE27,
   DECAF_WNAF_TABLE28, DECAF_WNAF_TABLE29, DECAF_WNAF_TABLE30, DECAF_WNAF_TABLE31]

end Ed448
