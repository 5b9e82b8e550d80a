import Verif.Types.Claim

set_option autoImplicit false

/-!
# The traces of the repository's tests

Transcriptions of the JSON files in /repo/src/traces. Hashes are given as the numbers their hexadecimal
strings denote, and become lists of 32 bytes.
-/

namespace Mpt.Fixtures
open Mpt Types

/-- A hash of a trace (`HexBytes<32>`, /repo/src/serde.rs:255). -/
def h (x : ℕ) : List ℕ := Spec.beBytes 32 x

/-- /repo/src/traces/empty_account_type_1.json, lines 1-67. -/
def empty_account_type_1 : SMTTrace :=
  { address := Spec.beBytes 20 0x0000000000000000000000000000000000000000,
    accountKey := h 0x228442949e7ba388bf9c08ec9374c72a579a39d2a1bf453d87dae5368c5f3c1d,
    accountPath := (⟨h 0xb3e9ff02c109b1d6aefa774523aaf5bef1207226e85a3726ecb505227ad1e621,
    some ⟨h 0xd5183cce27ff45da94689d72d862770b5d6ff7315de77ef74d4e4318ac14ea11,
      h 0x12c81213be899bb64430611a4aa90214650855786bbec94bc0aea8780cf7fb1f, 4⟩,
    [⟨h 0xa66d39d51412f50d7df0c6388c765c74b023a3e5d9eba9cbc80b6ef17f76ab1e,
      h 0x4c132495916e6529f791ad1d6977c5b9cf8720a58a7f196ea6fae35dffd80c15, 9⟩,
     ⟨h 0x03703ecd3a382e78f6dd10259d232f45e22b592e2c91c091f3333ba8fc8ddb0a,
      h 0x0893ab6eb7dfbe3908cf199964e5a8eaa42673fee2dc4cdfdff46a037e100a08, 9⟩,
     ⟨h 0x936f5938a27c18791e4ed02b0a1ac88b3e09f4f8c3a84f1a9a75fa8f516ef902,
      h 0xd9c820802763f8140cd3557566054ddbddacb4433830a7bb0e30c1db08dfa914, 6⟩]⟩,
    ⟨h 0xb3e9ff02c109b1d6aefa774523aaf5bef1207226e85a3726ecb505227ad1e621,
    some ⟨h 0xd5183cce27ff45da94689d72d862770b5d6ff7315de77ef74d4e4318ac14ea11,
      h 0x12c81213be899bb64430611a4aa90214650855786bbec94bc0aea8780cf7fb1f, 4⟩,
    [⟨h 0xa66d39d51412f50d7df0c6388c765c74b023a3e5d9eba9cbc80b6ef17f76ab1e,
      h 0x4c132495916e6529f791ad1d6977c5b9cf8720a58a7f196ea6fae35dffd80c15, 9⟩,
     ⟨h 0x03703ecd3a382e78f6dd10259d232f45e22b592e2c91c091f3333ba8fc8ddb0a,
      h 0x0893ab6eb7dfbe3908cf199964e5a8eaa42673fee2dc4cdfdff46a037e100a08, 9⟩,
     ⟨h 0x936f5938a27c18791e4ed02b0a1ac88b3e09f4f8c3a84f1a9a75fa8f516ef902,
      h 0xd9c820802763f8140cd3557566054ddbddacb4433830a7bb0e30c1db08dfa914, 6⟩]⟩),
    accountUpdate := (none,
      none),
    statePath := (none, none),
    commonStateRoot := some (h 0x0000000000000000000000000000000000000000000000000000000000000000),
    stateKey := none,
    stateUpdate := none }

/-- /repo/src/traces/empty_account_type_2.json, lines 1-57. -/
def empty_account_type_2 : SMTTrace :=
  { address := Spec.beBytes 20 0x1414141414141414141414141414141414141414,
    accountKey := h 0x0528ff2808cf785c378aaf2765ac1000c537dbd43cb0022b2387f200ba160324,
    accountPath := (⟨h 0xb3e9ff02c109b1d6aefa774523aaf5bef1207226e85a3726ecb505227ad1e621,
    none,
    [⟨h 0x4c132495916e6529f791ad1d6977c5b9cf8720a58a7f196ea6fae35dffd80c15,
      h 0xa66d39d51412f50d7df0c6388c765c74b023a3e5d9eba9cbc80b6ef17f76ab1e, 9⟩,
     ⟨h 0xf485d05d32be22082faed55e8c38826fec4a8250f41ce4639d51fb249c322127,
      h 0xea63c2cf7aaed65918936ba7b61df455d10abed099b690d5b14825ed27aa7e1a, 9⟩,
     ⟨h 0x0000000000000000000000000000000000000000000000000000000000000000,
      h 0xa6a9b79363aac191b917d19aadd68390479fb9b83a481186e30beecf2c338812, 8⟩]⟩,
    ⟨h 0xb3e9ff02c109b1d6aefa774523aaf5bef1207226e85a3726ecb505227ad1e621,
    none,
    [⟨h 0x4c132495916e6529f791ad1d6977c5b9cf8720a58a7f196ea6fae35dffd80c15,
      h 0xa66d39d51412f50d7df0c6388c765c74b023a3e5d9eba9cbc80b6ef17f76ab1e, 9⟩,
     ⟨h 0xf485d05d32be22082faed55e8c38826fec4a8250f41ce4639d51fb249c322127,
      h 0xea63c2cf7aaed65918936ba7b61df455d10abed099b690d5b14825ed27aa7e1a, 9⟩,
     ⟨h 0x0000000000000000000000000000000000000000000000000000000000000000,
      h 0xa6a9b79363aac191b917d19aadd68390479fb9b83a481186e30beecf2c338812, 8⟩]⟩),
    accountUpdate := (none,
      none),
    statePath := (none, none),
    commonStateRoot := some (h 0x0000000000000000000000000000000000000000000000000000000000000000),
    stateKey := none,
    stateUpdate := none }

/-- /repo/src/traces/empty_account_type_1_balance_update.json, lines 1-83. -/
def empty_account_type_1_balance_update : SMTTrace :=
  { address := Spec.beBytes 20 0x0000000000000000000000000000000000000000,
    accountKey := h 0x228442949e7ba388bf9c08ec9374c72a579a39d2a1bf453d87dae5368c5f3c1d,
    accountPath := (⟨h 0xb3e9ff02c109b1d6aefa774523aaf5bef1207226e85a3726ecb505227ad1e621,
    some ⟨h 0xd5183cce27ff45da94689d72d862770b5d6ff7315de77ef74d4e4318ac14ea11,
      h 0x12c81213be899bb64430611a4aa90214650855786bbec94bc0aea8780cf7fb1f, 4⟩,
    [⟨h 0xa66d39d51412f50d7df0c6388c765c74b023a3e5d9eba9cbc80b6ef17f76ab1e,
      h 0x4c132495916e6529f791ad1d6977c5b9cf8720a58a7f196ea6fae35dffd80c15, 9⟩,
     ⟨h 0x03703ecd3a382e78f6dd10259d232f45e22b592e2c91c091f3333ba8fc8ddb0a,
      h 0x0893ab6eb7dfbe3908cf199964e5a8eaa42673fee2dc4cdfdff46a037e100a08, 9⟩,
     ⟨h 0x936f5938a27c18791e4ed02b0a1ac88b3e09f4f8c3a84f1a9a75fa8f516ef902,
      h 0xd9c820802763f8140cd3557566054ddbddacb4433830a7bb0e30c1db08dfa914, 6⟩]⟩,
    ⟨h 0x2d38fa2f00a562151220ff34ed775c691317d7d5fec1c6be447faa300ecd4004,
    some ⟨h 0xd40db0ee83e5d59382ab7774bf76b2c0a2ed10883acebdb44e0b05d1d0f57e11,
      h 0x228442949e7ba388bf9c08ec9374c72a579a39d2a1bf453d87dae5368c5f3c1d, 4⟩,
    [⟨h 0x29a4a36016f84ad2e2084cebee65859144e77b6f2bb08f568433dcd46801a727,
      h 0x4c132495916e6529f791ad1d6977c5b9cf8720a58a7f196ea6fae35dffd80c15, 9⟩,
     ⟨h 0xd734c75c45b9fbe3aab7b3bcbe20967dd6568d33e611a6aaf0817cfa49646d19,
      h 0x0893ab6eb7dfbe3908cf199964e5a8eaa42673fee2dc4cdfdff46a037e100a08, 9⟩,
     ⟨h 0xf5a63132857ec8fe95ccd1f08b1a8a6f3089088e529925cbc3f4448ba6aea225,
      h 0xd9c820802763f8140cd3557566054ddbddacb4433830a7bb0e30c1db08dfa914, 8⟩,
     ⟨h 0x8af58c490690e30fae9c999638473b5e2a0e72a892e2a5603670663b419fd90c,
      h 0x0000000000000000000000000000000000000000000000000000000000000000, 8⟩,
     ⟨h 0xbd652a8fd7bfe57630c2504e1b9fbe15da66f033274ee8f49b0dee77d447c504,
      h 0x936f5938a27c18791e4ed02b0a1ac88b3e09f4f8c3a84f1a9a75fa8f516ef902, 6⟩]⟩),
    accountUpdate := (none,
      some ⟨0, 0xc8, 0x0,
      0x0, 0⟩),
    statePath := (none, none),
    commonStateRoot := some (h 0x0000000000000000000000000000000000000000000000000000000000000000),
    stateKey := none,
    stateUpdate := none }

/-- /repo/src/traces/empty_account_type_1_nonce_update.json, lines 1-78. -/
def empty_account_type_1_nonce_update : SMTTrace :=
  { address := Spec.beBytes 20 0x0b0b0b0b0b0b0b0b0b0b0b0b0b0b0b0b0b0b0b0b,
    accountKey := h 0xf732e39dd1c1d610d1e5ba97c55c156bf2e9b3c9f13d26f655ea18796bdda90f,
    accountPath := (⟨h 0xb3e9ff02c109b1d6aefa774523aaf5bef1207226e85a3726ecb505227ad1e621,
    some ⟨h 0xd5183cce27ff45da94689d72d862770b5d6ff7315de77ef74d4e4318ac14ea11,
      h 0xff2cc690b31f32da9f69ee898d38396be2b418bcd781e2f504c823a9e3b5990c, 4⟩,
    [⟨h 0x4c132495916e6529f791ad1d6977c5b9cf8720a58a7f196ea6fae35dffd80c15,
      h 0xa66d39d51412f50d7df0c6388c765c74b023a3e5d9eba9cbc80b6ef17f76ab1e, 9⟩,
     ⟨h 0xea63c2cf7aaed65918936ba7b61df455d10abed099b690d5b14825ed27aa7e1a,
      h 0xf485d05d32be22082faed55e8c38826fec4a8250f41ce4639d51fb249c322127, 9⟩,
     ⟨h 0xebb8b01466f6764df4b8b2a3d180b849b9616c536c0a4b6f107e3b10a739761e,
      h 0x0f83a2e43aa2c5994001f58a94b99b65f39449455e291766d20feca59209cd08, 6⟩]⟩,
    ⟨h 0x995ccb91b8d6c660027d0c7e2db4442d5942f13c43dfb51251e2f3e113b53503,
    some ⟨h 0xf42020e24a87c5f7f00d7bf90ae137bb7cb8d23611627ce0f46e74470af77207,
      h 0xf732e39dd1c1d610d1e5ba97c55c156bf2e9b3c9f13d26f655ea18796bdda90f, 4⟩,
    [⟨h 0x5b6939dabed655dee192be83c56f2633365766e642610f155488e2549c0b5303,
      h 0xa66d39d51412f50d7df0c6388c765c74b023a3e5d9eba9cbc80b6ef17f76ab1e, 9⟩,
     ⟨h 0x00f167b0fc5c5af2b84e520ccdbe33952ab69e266356c114bba458c067d3b21e,
      h 0xf485d05d32be22082faed55e8c38826fec4a8250f41ce4639d51fb249c322127, 9⟩,
     ⟨h 0x50b84b89e48fa46c8b95265c085c7b828feb3b68c19a1de01548f1089e00da01,
      h 0x0f83a2e43aa2c5994001f58a94b99b65f39449455e291766d20feca59209cd08, 7⟩,
     ⟨h 0x24ea2477f449b36f9059936a59394e3bc7df2724cf6934ee35aaa791722b4b30,
      h 0xebb8b01466f6764df4b8b2a3d180b849b9616c536c0a4b6f107e3b10a739761e, 6⟩]⟩),
    accountUpdate := (none,
      some ⟨200, 0x0, 0x0,
      0x0, 0⟩),
    statePath := (none, none),
    commonStateRoot := some (h 0x0000000000000000000000000000000000000000000000000000000000000000),
    stateKey := none,
    stateUpdate := none }

/-- /repo/src/traces/empty_account_type_2_balance_update.json, lines 1-68. -/
def empty_account_type_2_balance_update : SMTTrace :=
  { address := Spec.beBytes 20 0x1414141414141414141414141414141414141414,
    accountKey := h 0x0528ff2808cf785c378aaf2765ac1000c537dbd43cb0022b2387f200ba160324,
    accountPath := (⟨h 0xb3e9ff02c109b1d6aefa774523aaf5bef1207226e85a3726ecb505227ad1e621,
    none,
    [⟨h 0x4c132495916e6529f791ad1d6977c5b9cf8720a58a7f196ea6fae35dffd80c15,
      h 0xa66d39d51412f50d7df0c6388c765c74b023a3e5d9eba9cbc80b6ef17f76ab1e, 9⟩,
     ⟨h 0xf485d05d32be22082faed55e8c38826fec4a8250f41ce4639d51fb249c322127,
      h 0xea63c2cf7aaed65918936ba7b61df455d10abed099b690d5b14825ed27aa7e1a, 9⟩,
     ⟨h 0x0000000000000000000000000000000000000000000000000000000000000000,
      h 0xa6a9b79363aac191b917d19aadd68390479fb9b83a481186e30beecf2c338812, 8⟩]⟩,
    ⟨h 0x5a2414efcc32e8be0e1d26a4a3f46ee4ff8211c44220dbdd64960bb0fce5b722,
    some ⟨h 0x0d4de0a5d4665c3881fec254a7f1cb43ab19f029249081648edc6bfe3f16a610,
      h 0x0528ff2808cf785c378aaf2765ac1000c537dbd43cb0022b2387f200ba160324, 4⟩,
    [⟨h 0x95a80bcaea9bb560c48f62956dd193398bd4cbad882e8068cf422894fee6c92a,
      h 0xa66d39d51412f50d7df0c6388c765c74b023a3e5d9eba9cbc80b6ef17f76ab1e, 9⟩,
     ⟨h 0x66f056352b83824dcfa7b41df3d23aa80b36014068572a2e57273357a0f0c22d,
      h 0xea63c2cf7aaed65918936ba7b61df455d10abed099b690d5b14825ed27aa7e1a, 9⟩,
     ⟨h 0x8e80d651ba2bec43ee4c9d929740149affbe4327f21d8c7c7944bc88430b271c,
      h 0xa6a9b79363aac191b917d19aadd68390479fb9b83a481186e30beecf2c338812, 8⟩]⟩),
    accountUpdate := (none,
      some ⟨0, 0x1caac51a83, 0x0,
      0x0, 0⟩),
    statePath := (none, none),
    commonStateRoot := some (h 0x0000000000000000000000000000000000000000000000000000000000000000),
    stateKey := none,
    stateUpdate := none }

/-- /repo/src/traces/empty_account_type_2_nonce_update.json, lines 1-68. -/
def empty_account_type_2_nonce_update : SMTTrace :=
  { address := Spec.beBytes 20 0x1414141414141414141414141414141414141414,
    accountKey := h 0x0528ff2808cf785c378aaf2765ac1000c537dbd43cb0022b2387f200ba160324,
    accountPath := (⟨h 0xb3e9ff02c109b1d6aefa774523aaf5bef1207226e85a3726ecb505227ad1e621,
    none,
    [⟨h 0x4c132495916e6529f791ad1d6977c5b9cf8720a58a7f196ea6fae35dffd80c15,
      h 0xa66d39d51412f50d7df0c6388c765c74b023a3e5d9eba9cbc80b6ef17f76ab1e, 9⟩,
     ⟨h 0xf485d05d32be22082faed55e8c38826fec4a8250f41ce4639d51fb249c322127,
      h 0xea63c2cf7aaed65918936ba7b61df455d10abed099b690d5b14825ed27aa7e1a, 9⟩,
     ⟨h 0x0000000000000000000000000000000000000000000000000000000000000000,
      h 0xa6a9b79363aac191b917d19aadd68390479fb9b83a481186e30beecf2c338812, 8⟩]⟩,
    ⟨h 0xd9f27a88ad2093314ec125c48ddd1178da1db83142335ecf4958f3f5a3678b23,
    some ⟨h 0x65c44a49797f54ab3bf14e751b8c59c65fee50513b60467decd2defc3e424319,
      h 0x0528ff2808cf785c378aaf2765ac1000c537dbd43cb0022b2387f200ba160324, 4⟩,
    [⟨h 0x184f988ad75b2e5bb8cfb6e3c2c157a2621d11a892db5a0a909370f4eaf42d16,
      h 0xa66d39d51412f50d7df0c6388c765c74b023a3e5d9eba9cbc80b6ef17f76ab1e, 9⟩,
     ⟨h 0xbcead335ea114e6112030c0c12e1a59495163e8f20e72231f069d4b76921ec12,
      h 0xea63c2cf7aaed65918936ba7b61df455d10abed099b690d5b14825ed27aa7e1a, 9⟩,
     ⟨h 0x17a80fbb505406ea3d7d84b86c84e09d13986e58799111b50ac5d1cfb438fa1b,
      h 0xa6a9b79363aac191b917d19aadd68390479fb9b83a481186e30beecf2c338812, 8⟩]⟩),
    accountUpdate := (none,
      some ⟨123124128387, 0x0, 0x0,
      0x0, 0⟩),
    statePath := (none, none),
    commonStateRoot := some (h 0x0000000000000000000000000000000000000000000000000000000000000000),
    stateKey := none,
    stateUpdate := none }

/-- /repo/src/traces/existing_account_balance_update.json, lines 1-79. -/
def existing_account_balance_update : SMTTrace :=
  { address := Spec.beBytes 20 0x0202020202020202020202020202020202020202,
    accountKey := h 0xff2cc690b31f32da9f69ee898d38396be2b418bcd781e2f504c823a9e3b5990c,
    accountPath := (⟨h 0xb3e9ff02c109b1d6aefa774523aaf5bef1207226e85a3726ecb505227ad1e621,
    some ⟨h 0xd5183cce27ff45da94689d72d862770b5d6ff7315de77ef74d4e4318ac14ea11,
      h 0xff2cc690b31f32da9f69ee898d38396be2b418bcd781e2f504c823a9e3b5990c, 4⟩,
    [⟨h 0x4c132495916e6529f791ad1d6977c5b9cf8720a58a7f196ea6fae35dffd80c15,
      h 0xa66d39d51412f50d7df0c6388c765c74b023a3e5d9eba9cbc80b6ef17f76ab1e, 9⟩,
     ⟨h 0xea63c2cf7aaed65918936ba7b61df455d10abed099b690d5b14825ed27aa7e1a,
      h 0xf485d05d32be22082faed55e8c38826fec4a8250f41ce4639d51fb249c322127, 9⟩,
     ⟨h 0xebb8b01466f6764df4b8b2a3d180b849b9616c536c0a4b6f107e3b10a739761e,
      h 0x0f83a2e43aa2c5994001f58a94b99b65f39449455e291766d20feca59209cd08, 6⟩]⟩,
    ⟨h 0xc5249c83fd415dfaefc8a571baf809928ee9cf3a83db725e67b5efab2c849e2a,
    some ⟨h 0x7aaaf309a30602bd2cada44848a5345527cddb78d8ebcbf95bd03e56a9cec528,
      h 0xff2cc690b31f32da9f69ee898d38396be2b418bcd781e2f504c823a9e3b5990c, 4⟩,
    [⟨h 0x3deb29f5a72c623e0562111611ded2c719fadb6710fe5aa8405f9b9c3c201b0c,
      h 0xa66d39d51412f50d7df0c6388c765c74b023a3e5d9eba9cbc80b6ef17f76ab1e, 9⟩,
     ⟨h 0x8da46c9ad5d617b5758c054ac32064f074016de279fe6dc676c1216c5ebd792f,
      h 0xf485d05d32be22082faed55e8c38826fec4a8250f41ce4639d51fb249c322127, 9⟩,
     ⟨h 0xc194e5ef0982a25bbcd4932093d59d9f775b68f5fc904c8120096edc877b4628,
      h 0x0f83a2e43aa2c5994001f58a94b99b65f39449455e291766d20feca59209cd08, 6⟩]⟩),
    accountUpdate := (some ⟨0, 0x1, 0x0,
      0x0, 0⟩,
      some ⟨0, 0x12ca34, 0x0,
      0x0, 0⟩),
    statePath := (none, none),
    commonStateRoot := some (h 0x0000000000000000000000000000000000000000000000000000000000000000),
    stateKey := none,
    stateUpdate := none }

/-- /repo/src/traces/existing_account_code_size_update.json, lines 1-99. -/
def existing_account_code_size_update : SMTTrace :=
  { address := Spec.beBytes 20 0x0404040404040404040404040404040404040404,
    accountKey := h 0xbc47183529351c0a1de1339bd11c9fcbe706bebe4cfeb512b5eca9b808773c22,
    accountPath := (⟨h 0xb3e9ff02c109b1d6aefa774523aaf5bef1207226e85a3726ecb505227ad1e621,
    some ⟨h 0xd5183cce27ff45da94689d72d862770b5d6ff7315de77ef74d4e4318ac14ea11,
      h 0xbc47183529351c0a1de1339bd11c9fcbe706bebe4cfeb512b5eca9b808773c22, 4⟩,
    [⟨h 0xa66d39d51412f50d7df0c6388c765c74b023a3e5d9eba9cbc80b6ef17f76ab1e,
      h 0x4c132495916e6529f791ad1d6977c5b9cf8720a58a7f196ea6fae35dffd80c15, 9⟩,
     ⟨h 0x0893ab6eb7dfbe3908cf199964e5a8eaa42673fee2dc4cdfdff46a037e100a08,
      h 0x03703ecd3a382e78f6dd10259d232f45e22b592e2c91c091f3333ba8fc8ddb0a, 9⟩,
     ⟨h 0x390dad90d28a127e8aba1a8a2872e68ac9acadfbf28476766e5fed56c347630f,
      h 0xd93a8533b78805da6242290964713fcf98fe162788121fb006d6e32154a0ac03, 7⟩,
     ⟨h 0xa06587340be88ba91a07068e100cf3ac1c383de6f9e6cc023e1a550bc307830d,
      h 0x0000000000000000000000000000000000000000000000000000000000000000, 7⟩,
     ⟨h 0x0dbed2de655bdf31c59616230ccbdacf461df536443ebadaf86f8a63674eab0a,
      h 0x093476b5531dce3519bf3ebdb7c1762bda68f633fcb2e00a6cd194d46089ac10, 6⟩]⟩,
    ⟨h 0x59970f087910aad2307a0cceff2c361e1f428d51b5858feb07c79925e3359309,
    some ⟨h 0xec307bc289a81964a2f2d79a685ba399033aa5f82961d56193495ef23328d304,
      h 0xbc47183529351c0a1de1339bd11c9fcbe706bebe4cfeb512b5eca9b808773c22, 4⟩,
    [⟨h 0xb6d1d64697db79093624bbc8f8f45b87b1fe4184384da5abefea6565336c442a,
      h 0x4c132495916e6529f791ad1d6977c5b9cf8720a58a7f196ea6fae35dffd80c15, 9⟩,
     ⟨h 0xd3aecf7a427b062cf302a546baa9931fe2397ba1cf5ca11428731fd07342c42c,
      h 0x03703ecd3a382e78f6dd10259d232f45e22b592e2c91c091f3333ba8fc8ddb0a, 9⟩,
     ⟨h 0x28692d96e940426fe7915ee2361288e6d9b07d773aa481b9f109fbf869279828,
      h 0xd93a8533b78805da6242290964713fcf98fe162788121fb006d6e32154a0ac03, 7⟩,
     ⟨h 0x52c04e22a6f7e8dac86166c6e2cb9177e5b0f45961ff441cde732bf1bf63f022,
      h 0x0000000000000000000000000000000000000000000000000000000000000000, 7⟩,
     ⟨h 0x57475c61be34bcba6a5a4e68674b5394dd679c9f398b7706b0bb9ee42e39bf10,
      h 0x093476b5531dce3519bf3ebdb7c1762bda68f633fcb2e00a6cd194d46089ac10, 6⟩]⟩),
    accountUpdate := (some ⟨0, 0x1, 0x0,
      0x0, 0⟩,
      some ⟨0, 0x1, 0x0,
      0x0, 2342114⟩),
    statePath := (none, none),
    commonStateRoot := some (h 0x0000000000000000000000000000000000000000000000000000000000000000),
    stateKey := none,
    stateUpdate := none }

/-- /repo/src/traces/existing_account_keccak_codehash_update.json, lines 1-99. -/
def existing_account_keccak_codehash_update : SMTTrace :=
  { address := Spec.beBytes 20 0x0808080808080808080808080808080808080808,
    accountKey := h 0x2cb1dd51e4f0830f4eb3e0af2736d327ccc7e7b9ddf6e5846edaf7b2c3fc562b,
    accountPath := (⟨h 0xb3e9ff02c109b1d6aefa774523aaf5bef1207226e85a3726ecb505227ad1e621,
    some ⟨h 0xd5183cce27ff45da94689d72d862770b5d6ff7315de77ef74d4e4318ac14ea11,
      h 0x2cb1dd51e4f0830f4eb3e0af2736d327ccc7e7b9ddf6e5846edaf7b2c3fc562b, 4⟩,
    [⟨h 0xa66d39d51412f50d7df0c6388c765c74b023a3e5d9eba9cbc80b6ef17f76ab1e,
      h 0x4c132495916e6529f791ad1d6977c5b9cf8720a58a7f196ea6fae35dffd80c15, 9⟩,
     ⟨h 0x0893ab6eb7dfbe3908cf199964e5a8eaa42673fee2dc4cdfdff46a037e100a08,
      h 0x03703ecd3a382e78f6dd10259d232f45e22b592e2c91c091f3333ba8fc8ddb0a, 9⟩,
     ⟨h 0x390dad90d28a127e8aba1a8a2872e68ac9acadfbf28476766e5fed56c347630f,
      h 0xd93a8533b78805da6242290964713fcf98fe162788121fb006d6e32154a0ac03, 7⟩,
     ⟨h 0xa06587340be88ba91a07068e100cf3ac1c383de6f9e6cc023e1a550bc307830d,
      h 0x0000000000000000000000000000000000000000000000000000000000000000, 7⟩,
     ⟨h 0x093476b5531dce3519bf3ebdb7c1762bda68f633fcb2e00a6cd194d46089ac10,
      h 0x0dbed2de655bdf31c59616230ccbdacf461df536443ebadaf86f8a63674eab0a, 6⟩]⟩,
    ⟨h 0x29e91efebc15b63fa13956706543e5cc443a7a54eb3b489d9845657006afcc25,
    some ⟨h 0x48eb1308ad440c0f152d9c303487acee533938575d0bfaad7f19665710945524,
      h 0x2cb1dd51e4f0830f4eb3e0af2736d327ccc7e7b9ddf6e5846edaf7b2c3fc562b, 4⟩,
    [⟨h 0x69b44562239ca7306beb63b85f11b12deff1c7e088036549060fbf71bc53f103,
      h 0x4c132495916e6529f791ad1d6977c5b9cf8720a58a7f196ea6fae35dffd80c15, 9⟩,
     ⟨h 0x3a95af4f7bcce738f70687b9151ac7c65e6d3a41de3a5d93c5213147006d7617,
      h 0x03703ecd3a382e78f6dd10259d232f45e22b592e2c91c091f3333ba8fc8ddb0a, 9⟩,
     ⟨h 0x8835cfdc1a294c6920b01f2dc221ee51108826720ef974783af3002c352d7a08,
      h 0xd93a8533b78805da6242290964713fcf98fe162788121fb006d6e32154a0ac03, 7⟩,
     ⟨h 0x33ba3a0d40f242c9d2a6886f291338ef264780b18a4cbf4901ac92e703489f2a,
      h 0x0000000000000000000000000000000000000000000000000000000000000000, 7⟩,
     ⟨h 0xd65eeb1d659d450396ecc402bbd099d3b43b6d294a4e390d5edd0cf874029517,
      h 0x0dbed2de655bdf31c59616230ccbdacf461df536443ebadaf86f8a63674eab0a, 6⟩]⟩),
    accountUpdate := (some ⟨0, 0x1, 0x0,
      0x0, 0⟩,
      some ⟨0, 0x1, 0x22b00000000000001bcffffffffffffffff0000000000000457,
      0x0, 0⟩),
    statePath := (none, none),
    commonStateRoot := some (h 0x0000000000000000000000000000000000000000000000000000000000000000),
    stateKey := none,
    stateUpdate := none }

/-- /repo/src/traces/existing_account_nonce_update.json, lines 1-99. -/
def existing_account_nonce_update : SMTTrace :=
  { address := Spec.beBytes 20 0x0404040404040404040404040404040404040404,
    accountKey := h 0xbc47183529351c0a1de1339bd11c9fcbe706bebe4cfeb512b5eca9b808773c22,
    accountPath := (⟨h 0xb3e9ff02c109b1d6aefa774523aaf5bef1207226e85a3726ecb505227ad1e621,
    some ⟨h 0xd5183cce27ff45da94689d72d862770b5d6ff7315de77ef74d4e4318ac14ea11,
      h 0xbc47183529351c0a1de1339bd11c9fcbe706bebe4cfeb512b5eca9b808773c22, 4⟩,
    [⟨h 0xa66d39d51412f50d7df0c6388c765c74b023a3e5d9eba9cbc80b6ef17f76ab1e,
      h 0x4c132495916e6529f791ad1d6977c5b9cf8720a58a7f196ea6fae35dffd80c15, 9⟩,
     ⟨h 0x0893ab6eb7dfbe3908cf199964e5a8eaa42673fee2dc4cdfdff46a037e100a08,
      h 0x03703ecd3a382e78f6dd10259d232f45e22b592e2c91c091f3333ba8fc8ddb0a, 9⟩,
     ⟨h 0x390dad90d28a127e8aba1a8a2872e68ac9acadfbf28476766e5fed56c347630f,
      h 0xd93a8533b78805da6242290964713fcf98fe162788121fb006d6e32154a0ac03, 7⟩,
     ⟨h 0xa06587340be88ba91a07068e100cf3ac1c383de6f9e6cc023e1a550bc307830d,
      h 0x0000000000000000000000000000000000000000000000000000000000000000, 7⟩,
     ⟨h 0x0dbed2de655bdf31c59616230ccbdacf461df536443ebadaf86f8a63674eab0a,
      h 0x093476b5531dce3519bf3ebdb7c1762bda68f633fcb2e00a6cd194d46089ac10, 6⟩]⟩,
    ⟨h 0xd853b927733f79dff7da6cd8a8ca01438816ec82d4946a8dcb5e35381ff58e0f,
    some ⟨h 0x02d35c0011d4d648ad35580cdc6cc18beb8b4a6997cda5a113973270c5786703,
      h 0xbc47183529351c0a1de1339bd11c9fcbe706bebe4cfeb512b5eca9b808773c22, 4⟩,
    [⟨h 0x5e4316d009eee2ba1658d79287e4d488f5a2c10bc4305baeb84a80f6ebbfed26,
      h 0x4c132495916e6529f791ad1d6977c5b9cf8720a58a7f196ea6fae35dffd80c15, 9⟩,
     ⟨h 0xb19bdb62174b1da0ea350e2f16a1dbe2e565f20773a3bf627d1963e2a4ac3b0b,
      h 0x03703ecd3a382e78f6dd10259d232f45e22b592e2c91c091f3333ba8fc8ddb0a, 9⟩,
     ⟨h 0x412ef57db973ff43688939fcc76a85a8d48b03e660f87e983073f1055ea1d62b,
      h 0xd93a8533b78805da6242290964713fcf98fe162788121fb006d6e32154a0ac03, 7⟩,
     ⟨h 0xa7441f0351f136dd9081d1692652bd06f2e754f658ecb21c58b5113101fd9105,
      h 0x0000000000000000000000000000000000000000000000000000000000000000, 7⟩,
     ⟨h 0xfee2f1b4ab0139a1443e94ea71e260146a7a09e3f003a6cbe2f7197b1ecf430f,
      h 0x093476b5531dce3519bf3ebdb7c1762bda68f633fcb2e00a6cd194d46089ac10, 6⟩]⟩),
    accountUpdate := (some ⟨0, 0x1, 0x0,
      0x0, 0⟩,
      some ⟨1, 0x1, 0x0,
      0x0, 0⟩),
    statePath := (none, none),
    commonStateRoot := some (h 0x0000000000000000000000000000000000000000000000000000000000000000),
    stateKey := none,
    stateUpdate := none }

/-- /repo/src/traces/existing_account_poseidon_codehash_update.json, lines 1-99. -/
def existing_account_poseidon_codehash_update : SMTTrace :=
  { address := Spec.beBytes 20 0x0404040404040404040404040404040404040404,
    accountKey := h 0xbc47183529351c0a1de1339bd11c9fcbe706bebe4cfeb512b5eca9b808773c22,
    accountPath := (⟨h 0xb3e9ff02c109b1d6aefa774523aaf5bef1207226e85a3726ecb505227ad1e621,
    some ⟨h 0xd5183cce27ff45da94689d72d862770b5d6ff7315de77ef74d4e4318ac14ea11,
      h 0xbc47183529351c0a1de1339bd11c9fcbe706bebe4cfeb512b5eca9b808773c22, 4⟩,
    [⟨h 0xa66d39d51412f50d7df0c6388c765c74b023a3e5d9eba9cbc80b6ef17f76ab1e,
      h 0x4c132495916e6529f791ad1d6977c5b9cf8720a58a7f196ea6fae35dffd80c15, 9⟩,
     ⟨h 0x0893ab6eb7dfbe3908cf199964e5a8eaa42673fee2dc4cdfdff46a037e100a08,
      h 0x03703ecd3a382e78f6dd10259d232f45e22b592e2c91c091f3333ba8fc8ddb0a, 9⟩,
     ⟨h 0x390dad90d28a127e8aba1a8a2872e68ac9acadfbf28476766e5fed56c347630f,
      h 0xd93a8533b78805da6242290964713fcf98fe162788121fb006d6e32154a0ac03, 7⟩,
     ⟨h 0xa06587340be88ba91a07068e100cf3ac1c383de6f9e6cc023e1a550bc307830d,
      h 0x0000000000000000000000000000000000000000000000000000000000000000, 7⟩,
     ⟨h 0x0dbed2de655bdf31c59616230ccbdacf461df536443ebadaf86f8a63674eab0a,
      h 0x093476b5531dce3519bf3ebdb7c1762bda68f633fcb2e00a6cd194d46089ac10, 6⟩]⟩,
    ⟨h 0x9837669f15bfc8788c34b17f6dae98b06cd6c66c9c461972a2a7d23ff174a32d,
    some ⟨h 0x5b49cbbb725f686b759f6308ee12d00f79a9ed37ecdb98583993e078b6ace81f,
      h 0xbc47183529351c0a1de1339bd11c9fcbe706bebe4cfeb512b5eca9b808773c22, 4⟩,
    [⟨h 0xa2ccb54215fa910bb941a125e5d46572d673a70fb7527c2b025a4c28625db20d,
      h 0x4c132495916e6529f791ad1d6977c5b9cf8720a58a7f196ea6fae35dffd80c15, 9⟩,
     ⟨h 0xb5607215723498d84c61ab2c2d96c2f36964d4b9c8024e06ead9c1224c830c13,
      h 0x03703ecd3a382e78f6dd10259d232f45e22b592e2c91c091f3333ba8fc8ddb0a, 9⟩,
     ⟨h 0xd9d2a893b4f46b0c585d5aac5922e5d39f0280cd38906c117204aeda12fc3500,
      h 0xd93a8533b78805da6242290964713fcf98fe162788121fb006d6e32154a0ac03, 7⟩,
     ⟨h 0x2c26a037cd5bfe48555e868cb30c380e4e1ac61a92789c9e1623f6d1b798571e,
      h 0x0000000000000000000000000000000000000000000000000000000000000000, 7⟩,
     ⟨h 0xc7f3df61b5713c3de0e278bdc412da2b9b34f6da9f182ff8694305178ae30b2b,
      h 0x093476b5531dce3519bf3ebdb7c1762bda68f633fcb2e00a6cd194d46089ac10, 6⟩]⟩),
    accountUpdate := (some ⟨0, 0x1, 0x0,
      0x0, 0⟩,
      some ⟨0, 0x1, 0x0,
      0x926ffffffffffffffffffffffffffffffffffffffffffffffff, 0⟩),
    statePath := (none, none),
    commonStateRoot := some (h 0x0000000000000000000000000000000000000000000000000000000000000000),
    stateKey := none,
    stateUpdate := none }

/-- /repo/src/traces/existing_storage_update.json, lines 1-219. -/
def existing_storage_update : SMTTrace :=
  { address := Spec.beBytes 20 0x0101010101010101010101010101010101010101,
    accountKey := h 0x2368fc91ec42cf498e51d1796cfcacf1efb26920e114962fb9c4763b1080341d,
    accountPath := (⟨h 0xb696019bc06c70a975c602aa0d7a1fa25c04e18cf48d7b4ead1ad980481d6616,
    some ⟨h 0xd472374b1135b67ffc1d5414460fe3b4efaf31ce9ae4c83d1364ba87a9472a2c,
      h 0x2368fc91ec42cf498e51d1796cfcacf1efb26920e114962fb9c4763b1080341d, 4⟩,
    [⟨h 0xa8ba04fc659bc821c6dbc1f6775dcb9e83dd215a1943c6a6c5375bdb65498b24,
      h 0xa66d39d51412f50d7df0c6388c765c74b023a3e5d9eba9cbc80b6ef17f76ab1e, 9⟩,
     ⟨h 0x339130a89388cf0ced2bb4f9b4e5073930e4121e16ee46e301acfcce18a3220d,
      h 0xf485d05d32be22082faed55e8c38826fec4a8250f41ce4639d51fb249c322127, 9⟩,
     ⟨h 0x1488ae111aac349974efc97e73fc7415540a43249af5155997dbb0c2f22fc201,
      h 0xebb8b01466f6764df4b8b2a3d180b849b9616c536c0a4b6f107e3b10a739761e, 6⟩]⟩,
    ⟨h 0xda976f8a96f934ef95039a0af321cae53b2c03d073da9938d5d6365e0a21b82e,
    some ⟨h 0x955cc7b55a09e9141ad794466730f604e1eb4eb10a2e305d21cf4f790f44081d,
      h 0x2368fc91ec42cf498e51d1796cfcacf1efb26920e114962fb9c4763b1080341d, 4⟩,
    [⟨h 0x0b34118237386ca118c49ab4d298e36567cddf52abcc2d20807db0b4e15a8b01,
      h 0xa66d39d51412f50d7df0c6388c765c74b023a3e5d9eba9cbc80b6ef17f76ab1e, 9⟩,
     ⟨h 0x547b44a81aa9399d7eda944530333aa26280421fd1561a28892038d9f0d92729,
      h 0xf485d05d32be22082faed55e8c38826fec4a8250f41ce4639d51fb249c322127, 9⟩,
     ⟨h 0x4c8b0a27fa1c9be0857281dc06c45625551270bc835feb9614d834c4aaae2818,
      h 0xebb8b01466f6764df4b8b2a3d180b849b9616c536c0a4b6f107e3b10a739761e, 6⟩]⟩),
    accountUpdate := (some ⟨0, 0x1, 0x0,
      0x0, 0⟩,
      some ⟨0, 0x1, 0x0,
      0x0, 0⟩),
    statePath := (some ⟨h 0x9f8447ba78ad7e1c7566d9242c8c6d77f02dfe081717cb0a1fe024485735290e,
    some ⟨h 0x50ea2e5d1d10a9ebc255098ff2670e4a4faaa8018a07eb92340063dea69b0426,
      h 0xf905bf0e3f6390d89aa4bfd38ebec0cd834a15c509be9796b05c44c34405b111, 4⟩,
    [⟨h 0x233ebad9cd643db2577e9a70c76a24705fc5e4f3b450c3bdcab4b7162a1e7012,
      h 0xf4d5d6e3ae2e36f7a099a2a7ed72432b173f3211c0c2b4d4e10e023030428829, 9⟩,
     ⟨h 0x9594a5a6bf52685e0fbfbc9b10d02baa4525837fe7774cbe86ab5b96dd15ee0d,
      h 0x720c52d0a1382db2c1c8d60502578d5497139182e5b52988ca96a2e2cb5ed81b, 9⟩,
     ⟨h 0xf5ddf83d9e16d65c3bacd2e8093581d7c5da48dd8cf2ea7b3d07b15adbe2d525,
      h 0x1159be0b5a22d4285fa446314948200958a5752517fbd165e9151c1ca978e601, 9⟩,
     ⟨h 0xb708b9dd7dd910bd3aff840e6b5c57b3a539aa8177c0403d56a252bfced52a2a,
      h 0x0000000000000000000000000000000000000000000000000000000000000000, 7⟩,
     ⟨h 0xf652ffaa792e9ec458883972eb84eafd5dfd1e2c0c032605f13861bf8589991b,
      h 0x0000000000000000000000000000000000000000000000000000000000000000, 7⟩,
     ⟨h 0x0fbb07b28f3fcb0b1927a527c1e851e84f682fa13afd4fa4962982e45e6a6929,
      h 0x0000000000000000000000000000000000000000000000000000000000000000, 7⟩,
     ⟨h 0x7133ef86743d5e356ffec6fe0a58f525c6f1020f50da6a7e9219fb89dd295e0f,
      h 0x4bc93095238464e0c132200f0ae157e2c5d3a238a0820815ebc600b415aeec0e, 7⟩,
     ⟨h 0xafcd598e4d350231487a54da34cd5772aa222cd10465a9f481999526ffd8bc21,
      h 0x0000000000000000000000000000000000000000000000000000000000000000, 7⟩,
     ⟨h 0x41a74d55b4d6bb5d49bff0d8d2453c41ea5e84e19f61c1a40df0165ad5573d1b,
      h 0x0000000000000000000000000000000000000000000000000000000000000000, 7⟩,
     ⟨h 0x3571e57644a8d65fd0edf4109d4b3382f901d4c35b3083cd3e25e51b5a41ed1d,
      h 0x0000000000000000000000000000000000000000000000000000000000000000, 8⟩,
     ⟨h 0x92f695d8435132c874a2db57bf1fae04f291d1ef1e551caff5a0ca27d29bea0b,
      h 0x95c9a2c30288e0542ba69389bf846a5cbbd2fafe08ec225dff1d7e795561fc2f, 6⟩]⟩, some ⟨h 0x8a84aca5b322747318b728b19ef62de090557bc0266deb1ca595b952096a7529,
    some ⟨h 0x2c5d0be0aa5628aa1d5e7886757e225bb17312ac3db0e32ce442a2ff9ce6d511,
      h 0xf905bf0e3f6390d89aa4bfd38ebec0cd834a15c509be9796b05c44c34405b111, 4⟩,
    [⟨h 0xeef45d62d450a373a79e8346c621523779eff37836a674d7fbb20e886b995d0c,
      h 0xf4d5d6e3ae2e36f7a099a2a7ed72432b173f3211c0c2b4d4e10e023030428829, 9⟩,
     ⟨h 0x8331db301f440968f0130600b90d215e721dd40e4a2bcd29bab4446391ce002c,
      h 0x720c52d0a1382db2c1c8d60502578d5497139182e5b52988ca96a2e2cb5ed81b, 9⟩,
     ⟨h 0x17a3fd05ea42fdc83104bd2bed18444cf13336a9c4bed283ef9743ea12aaa113,
      h 0x1159be0b5a22d4285fa446314948200958a5752517fbd165e9151c1ca978e601, 9⟩,
     ⟨h 0xa5ffb7158393c1ac82909a4c82aa22caeb8f39aa777e28ebc7b49846a706a30d,
      h 0x0000000000000000000000000000000000000000000000000000000000000000, 7⟩,
     ⟨h 0x2a1a9be599581240e9712da9d557d437f66efa9ae07f6392be9f54fd0115fc08,
      h 0x0000000000000000000000000000000000000000000000000000000000000000, 7⟩,
     ⟨h 0x62aba3d23d1e11c3407c2d3a04af70e7aac2a5c0a356909e9c8faa2c686fa913,
      h 0x0000000000000000000000000000000000000000000000000000000000000000, 7⟩,
     ⟨h 0x5e29eee17941093e287e545e4b01e192a4c38c3c8e9193d3d8826baf1f7e1d0b,
      h 0x4bc93095238464e0c132200f0ae157e2c5d3a238a0820815ebc600b415aeec0e, 7⟩,
     ⟨h 0x0244b7f852a9fc7c1e603020ccc818e3996f07404559d944421234bc85f1d509,
      h 0x0000000000000000000000000000000000000000000000000000000000000000, 7⟩,
     ⟨h 0x461a403d60e2ad6e9d84672fecb931dbc07ef462e59d49c930834f1fd369802a,
      h 0x0000000000000000000000000000000000000000000000000000000000000000, 7⟩,
     ⟨h 0x6c953a769610a414e1a279be76c757198249f0e8cb6e2957415b65085c2af403,
      h 0x0000000000000000000000000000000000000000000000000000000000000000, 8⟩,
     ⟨h 0x5790d950a6186fcf3513251370d06241571e78eea1279b276e17906c61816c05,
      h 0x95c9a2c30288e0542ba69389bf846a5cbbd2fafe08ec225dff1d7e795561fc2f, 6⟩]⟩),
    commonStateRoot := none,
    stateKey := some (h 0xf905bf0e3f6390d89aa4bfd38ebec0cd834a15c509be9796b05c44c34405b111),
    stateUpdate := some (some ⟨h 0x0000000000000000000000000000000000000000000000000000000000000028, h 0x0000000000000000000000000000000000000000000000000000000000000001⟩,
    some ⟨h 0x0000000000000000000000000000000000000000000000000000000000000028, h 0x0000000000000000000000000000000000000000000000000000000000000014⟩) }

/-- /repo/src/traces/empty_storage_type_1_update_a.json, lines 1-159. -/
def empty_storage_type_1_update_a : SMTTrace :=
  { address := Spec.beBytes 20 0x0101010101010101010101010101010101010101,
    accountKey := h 0x2368fc91ec42cf498e51d1796cfcacf1efb26920e114962fb9c4763b1080341d,
    accountPath := (⟨h 0xb696019bc06c70a975c602aa0d7a1fa25c04e18cf48d7b4ead1ad980481d6616,
    some ⟨h 0xd472374b1135b67ffc1d5414460fe3b4efaf31ce9ae4c83d1364ba87a9472a2c,
      h 0x2368fc91ec42cf498e51d1796cfcacf1efb26920e114962fb9c4763b1080341d, 4⟩,
    [⟨h 0xa8ba04fc659bc821c6dbc1f6775dcb9e83dd215a1943c6a6c5375bdb65498b24,
      h 0xa66d39d51412f50d7df0c6388c765c74b023a3e5d9eba9cbc80b6ef17f76ab1e, 9⟩,
     ⟨h 0x339130a89388cf0ced2bb4f9b4e5073930e4121e16ee46e301acfcce18a3220d,
      h 0xf485d05d32be22082faed55e8c38826fec4a8250f41ce4639d51fb249c322127, 9⟩,
     ⟨h 0x1488ae111aac349974efc97e73fc7415540a43249af5155997dbb0c2f22fc201,
      h 0xebb8b01466f6764df4b8b2a3d180b849b9616c536c0a4b6f107e3b10a739761e, 6⟩]⟩,
    ⟨h 0x1e61b81343b4726a39b25af4fcd4809d2599b7344a26310c2ff3ea538b1bb720,
    some ⟨h 0xf40471ec703f0c374188ffc2658895da71ba12520daa93978d162ff2ca71b900,
      h 0x2368fc91ec42cf498e51d1796cfcacf1efb26920e114962fb9c4763b1080341d, 4⟩,
    [⟨h 0xfe041df6af919fb3d132f5257e5dba276fcee9ac9b19513717485f9722645317,
      h 0xa66d39d51412f50d7df0c6388c765c74b023a3e5d9eba9cbc80b6ef17f76ab1e, 9⟩,
     ⟨h 0x15dd24c77e607e3b9ab731dc2370c289e8d383edbd407448b824e17857d6e60c,
      h 0xf485d05d32be22082faed55e8c38826fec4a8250f41ce4639d51fb249c322127, 9⟩,
     ⟨h 0x97964b77683ae9296232eec09287a5292fdcabad5ad45043b9b281aa8c9ebf05,
      h 0xebb8b01466f6764df4b8b2a3d180b849b9616c536c0a4b6f107e3b10a739761e, 6⟩]⟩),
    accountUpdate := (some ⟨0, 0x1, 0x0,
      0x0, 0⟩,
      some ⟨0, 0x1, 0x0,
      0x0, 0⟩),
    statePath := (some ⟨h 0x9f8447ba78ad7e1c7566d9242c8c6d77f02dfe081717cb0a1fe024485735290e,
    some ⟨h 0x50ea2e5d1d10a9ebc255098ff2670e4a4faaa8018a07eb92340063dea69b0426,
      h 0x34d524b5f5f6d93367bf6b6452a1aa7e17d8696555258de41be8002cc6cdd42f, 4⟩,
    [⟨h 0xf4d5d6e3ae2e36f7a099a2a7ed72432b173f3211c0c2b4d4e10e023030428829,
      h 0x233ebad9cd643db2577e9a70c76a24705fc5e4f3b450c3bdcab4b7162a1e7012, 9⟩,
     ⟨h 0x5d1276a69a4026e4fef7bcaf66a6a11282ec2a1607f2b245b8acb8fc9bd08927,
      h 0xf0691fb03392278193e2b56be466d7c6ce4e11e9095cc4a5e5f3bc2dfa96df20, 9⟩,
     ⟨h 0xd544f1089502952ca7f9a7c7a36e673ffe940269b1db269cfa325683bc580c28,
      h 0x3e284a214b6cc48e7efb52245561b1341d66871759eff8a4c6651abb9885f005, 9⟩,
     ⟨h 0xff54e4d29e6dcde6784ec1cdacbd6a30092719795f45f08a50e7514d0ed09a1e,
      h 0xf20a556d831214034d26d72d4298b438082aeea33d871201a38432b243adc628, 7⟩]⟩, some ⟨h 0xb63c17f2fe2bd4edc7362246aff9b8d02c0819fec8be095f6b4f0a1916599b1a,
    some ⟨h 0xbf4245864783af356463b2c5af200bb87bc64171dd99a8ac0acc67bfa408f600,
      h 0xd4bbd1bcd3b00b743d57005fd62af4e0df6c021c92288e1bf5ede810b09c590a, 4⟩,
    [⟨h 0x588ed0bd87bffa44e23f0842666d0884bbfb882c9423b216caf73211ab5cdc03,
      h 0x233ebad9cd643db2577e9a70c76a24705fc5e4f3b450c3bdcab4b7162a1e7012, 9⟩,
     ⟨h 0xbd78042c295097e3e5105483f361c663aec5827d3bd66a7e7651ba9453b24414,
      h 0xf0691fb03392278193e2b56be466d7c6ce4e11e9095cc4a5e5f3bc2dfa96df20, 9⟩,
     ⟨h 0x992cc9c028bb8b94dd8e81f8457618f9db67d76284cea3cc0989b4afbefe2e1a,
      h 0x3e284a214b6cc48e7efb52245561b1341d66871759eff8a4c6651abb9885f005, 9⟩,
     ⟨h 0xbfac6f01d0f8f2f32bd5c7a6c9c74a44f6a48df0bb8d2fde126feac487209f23,
      h 0xf20a556d831214034d26d72d4298b438082aeea33d871201a38432b243adc628, 9⟩,
     ⟨h 0xc6f68f9dcb9ede21466846e4fd907298de88431525a39c8d35a9f15d49e81f1f,
      h 0x0000000000000000000000000000000000000000000000000000000000000000, 7⟩,
     ⟨h 0x70063bdea0ed4a911f714843e09cbb626727deae7cebbd78a5d693f5249a8407,
      h 0xff54e4d29e6dcde6784ec1cdacbd6a30092719795f45f08a50e7514d0ed09a1e, 6⟩]⟩),
    commonStateRoot := none,
    stateKey := some (h 0xd4bbd1bcd3b00b743d57005fd62af4e0df6c021c92288e1bf5ede810b09c590a),
    stateUpdate := some (some ⟨h 0x0000000000000000000000000000000000000000000000000000000001653e61, h 0x0000000000000000000000000000000000000000000000000000000000000000⟩,
    some ⟨h 0x0000000000000000000000000000000000000000000000000000000001653e61, h 0x0000000000000000000000000000000000000000000000000000000000000133⟩) }

/-- /repo/src/traces/empty_storage_type_1_update_b.json, lines 1-169. -/
def empty_storage_type_1_update_b : SMTTrace :=
  { address := Spec.beBytes 20 0x0101010101010101010101010101010101010101,
    accountKey := h 0x2368fc91ec42cf498e51d1796cfcacf1efb26920e114962fb9c4763b1080341d,
    accountPath := (⟨h 0xb696019bc06c70a975c602aa0d7a1fa25c04e18cf48d7b4ead1ad980481d6616,
    some ⟨h 0xd472374b1135b67ffc1d5414460fe3b4efaf31ce9ae4c83d1364ba87a9472a2c,
      h 0x2368fc91ec42cf498e51d1796cfcacf1efb26920e114962fb9c4763b1080341d, 4⟩,
    [⟨h 0xa8ba04fc659bc821c6dbc1f6775dcb9e83dd215a1943c6a6c5375bdb65498b24,
      h 0xa66d39d51412f50d7df0c6388c765c74b023a3e5d9eba9cbc80b6ef17f76ab1e, 9⟩,
     ⟨h 0x339130a89388cf0ced2bb4f9b4e5073930e4121e16ee46e301acfcce18a3220d,
      h 0xf485d05d32be22082faed55e8c38826fec4a8250f41ce4639d51fb249c322127, 9⟩,
     ⟨h 0x1488ae111aac349974efc97e73fc7415540a43249af5155997dbb0c2f22fc201,
      h 0xebb8b01466f6764df4b8b2a3d180b849b9616c536c0a4b6f107e3b10a739761e, 6⟩]⟩,
    ⟨h 0x6c38c8de8bea480ef70ec2857ec2b02d756dcdfc0e253583e418a39b6e41cb08,
    some ⟨h 0x006a1519d7385d14cd2ee1fbb9244538d87881fc21f4aa0bcaaa9727573acd21,
      h 0x2368fc91ec42cf498e51d1796cfcacf1efb26920e114962fb9c4763b1080341d, 4⟩,
    [⟨h 0x54642d6c934cf174fd3a9a31ddd9cd362cda12dfb8672326ca64f397a4021321,
      h 0xa66d39d51412f50d7df0c6388c765c74b023a3e5d9eba9cbc80b6ef17f76ab1e, 9⟩,
     ⟨h 0x0436b0eb300b841ff31899d3b7bbddfe5c8ca6c4bca9107492ebd2191b5c5828,
      h 0xf485d05d32be22082faed55e8c38826fec4a8250f41ce4639d51fb249c322127, 9⟩,
     ⟨h 0xaa892597b4515a5f8561996f9cc44546d549234717b4216c5c64baa60b3b9f11,
      h 0xebb8b01466f6764df4b8b2a3d180b849b9616c536c0a4b6f107e3b10a739761e, 6⟩]⟩),
    accountUpdate := (some ⟨0, 0x1, 0x0,
      0x0, 0⟩,
      some ⟨0, 0x1, 0x0,
      0x0, 0⟩),
    statePath := (some ⟨h 0x9f8447ba78ad7e1c7566d9242c8c6d77f02dfe081717cb0a1fe024485735290e,
    some ⟨h 0x50ea2e5d1d10a9ebc255098ff2670e4a4faaa8018a07eb92340063dea69b0426,
      h 0x9044c8b6fcf025b005c278f6f154d7cba8c4603e9e597062c7b271a3c4496817, 4⟩,
    [⟨h 0xf4d5d6e3ae2e36f7a099a2a7ed72432b173f3211c0c2b4d4e10e023030428829,
      h 0x233ebad9cd643db2577e9a70c76a24705fc5e4f3b450c3bdcab4b7162a1e7012, 9⟩,
     ⟨h 0x5d1276a69a4026e4fef7bcaf66a6a11282ec2a1607f2b245b8acb8fc9bd08927,
      h 0xf0691fb03392278193e2b56be466d7c6ce4e11e9095cc4a5e5f3bc2dfa96df20, 9⟩,
     ⟨h 0x3e284a214b6cc48e7efb52245561b1341d66871759eff8a4c6651abb9885f005,
      h 0xd544f1089502952ca7f9a7c7a36e673ffe940269b1db269cfa325683bc580c28, 9⟩,
     ⟨h 0x732b296b79456bb32d998aa557d9335f3a847412aad9b2cd4af86a103c333603,
      h 0x0000000000000000000000000000000000000000000000000000000000000000, 8⟩,
     ⟨h 0x0d68bfd900eefa2da50c92edbadb07b55d8b47377b79fe0c4e81c0ad432e7517,
      h 0x390c14944e6a7e0b36d897675cd4ecec16ebd5629b2f9c4979262f32dcae6915, 8⟩]⟩, some ⟨h 0x07417bd293ebf64ba5aef2c9935f515af0f04cef28976dbf74e37a017c2f6a2d,
    some ⟨h 0xbf4245864783af356463b2c5af200bb87bc64171dd99a8ac0acc67bfa408f600,
      h 0x50ea2e5d1d10a9ebc255098ff2670e4a4faaa8018a07eb92340063dea69b0426, 4⟩,
    [⟨h 0x67b79477297dfba8ab91ed5db6e9c410be0ca3a5995359fcc4e4f499a3246300,
      h 0x233ebad9cd643db2577e9a70c76a24705fc5e4f3b450c3bdcab4b7162a1e7012, 9⟩,
     ⟨h 0x9982dc7769358bd94d2fbf8835bb7f39d681ac3aea293d9ff359d8dd5f238e1e,
      h 0xf0691fb03392278193e2b56be466d7c6ce4e11e9095cc4a5e5f3bc2dfa96df20, 9⟩,
     ⟨h 0xb58bdec478b90d340305a2b03e6c45960ddff6ce3a4e25eb6fb2d25bf20ace12,
      h 0xd544f1089502952ca7f9a7c7a36e673ffe940269b1db269cfa325683bc580c28, 9⟩,
     ⟨h 0xb5d0c825b78df3062a1bbe96527074610286568e2b0e4661dfd752a220420b03,
      h 0x0000000000000000000000000000000000000000000000000000000000000000, 8⟩,
     ⟨h 0xe175e7ee923b9ce62cd3c2e462a2f67e43ab9ebbaf9d42030e67e9d133fe512f,
      h 0x390c14944e6a7e0b36d897675cd4ecec16ebd5629b2f9c4979262f32dcae6915, 9⟩,
     ⟨h 0xaf7efe4bdfcdb6dc0d89fdf6ffe58028167ea9104c51e3814c613d5dc108b50e,
      h 0x0000000000000000000000000000000000000000000000000000000000000000, 8⟩,
     ⟨h 0x880915c46ba6c99ad943046fea16ea056c3d3112150a07c88b6640e5299a6805,
      h 0x0d68bfd900eefa2da50c92edbadb07b55d8b47377b79fe0c4e81c0ad432e7517, 6⟩]⟩),
    commonStateRoot := none,
    stateKey := some (h 0x50ea2e5d1d10a9ebc255098ff2670e4a4faaa8018a07eb92340063dea69b0426),
    stateUpdate := some (some ⟨h 0x0000000000000000000000000000000000000000000000000000000000000001, h 0x0000000000000000000000000000000000000000000000000000000000000000⟩,
    some ⟨h 0x0000000000000000000000000000000000000000000000000000000000000001, h 0x0000000000000000000000000000000000000000000000000000000000000133⟩) }

/-- /repo/src/traces/empty_storage_type_1_update_c.json, lines 1-144. -/
def empty_storage_type_1_update_c : SMTTrace :=
  { address := Spec.beBytes 20 0x0101010101010101010101010101010101010101,
    accountKey := h 0x2368fc91ec42cf498e51d1796cfcacf1efb26920e114962fb9c4763b1080341d,
    accountPath := (⟨h 0xb696019bc06c70a975c602aa0d7a1fa25c04e18cf48d7b4ead1ad980481d6616,
    some ⟨h 0xd472374b1135b67ffc1d5414460fe3b4efaf31ce9ae4c83d1364ba87a9472a2c,
      h 0x2368fc91ec42cf498e51d1796cfcacf1efb26920e114962fb9c4763b1080341d, 4⟩,
    [⟨h 0xa8ba04fc659bc821c6dbc1f6775dcb9e83dd215a1943c6a6c5375bdb65498b24,
      h 0xa66d39d51412f50d7df0c6388c765c74b023a3e5d9eba9cbc80b6ef17f76ab1e, 9⟩,
     ⟨h 0x339130a89388cf0ced2bb4f9b4e5073930e4121e16ee46e301acfcce18a3220d,
      h 0xf485d05d32be22082faed55e8c38826fec4a8250f41ce4639d51fb249c322127, 9⟩,
     ⟨h 0x1488ae111aac349974efc97e73fc7415540a43249af5155997dbb0c2f22fc201,
      h 0xebb8b01466f6764df4b8b2a3d180b849b9616c536c0a4b6f107e3b10a739761e, 6⟩]⟩,
    ⟨h 0xce4173f31ef0012e08c88e1b6c5ca0bfa2fa4fbb83c6321050ec23629eeab710,
    some ⟨h 0xd2d01beada4773f453ea5c55274eb25b5bb6d392c3140a0daa63065b2d601d01,
      h 0x2368fc91ec42cf498e51d1796cfcacf1efb26920e114962fb9c4763b1080341d, 4⟩,
    [⟨h 0x34c4cf2a144557fc872c5789e62836fc1c99080a09a5757d0355cba44cdf7914,
      h 0xa66d39d51412f50d7df0c6388c765c74b023a3e5d9eba9cbc80b6ef17f76ab1e, 9⟩,
     ⟨h 0x401a87991073a13293e8add521220ba66fda87152d2e010d4bd03d3be6f3af1f,
      h 0xf485d05d32be22082faed55e8c38826fec4a8250f41ce4639d51fb249c322127, 9⟩,
     ⟨h 0xdc15ac9869d9fbff4002a4a2f7b78d6fb349736fa5c5838998fab0b0a9833e21,
      h 0xebb8b01466f6764df4b8b2a3d180b849b9616c536c0a4b6f107e3b10a739761e, 6⟩]⟩),
    accountUpdate := (some ⟨0, 0x1, 0x0,
      0x0, 0⟩,
      some ⟨0, 0x1, 0x0,
      0x0, 0⟩),
    statePath := (some ⟨h 0x9f8447ba78ad7e1c7566d9242c8c6d77f02dfe081717cb0a1fe024485735290e,
    some ⟨h 0x50ea2e5d1d10a9ebc255098ff2670e4a4faaa8018a07eb92340063dea69b0426,
      h 0x630fe719918f65244b259027991431bc0fde4bd0aad4bf82b7f4e022b20cff12, 4⟩,
    [⟨h 0x233ebad9cd643db2577e9a70c76a24705fc5e4f3b450c3bdcab4b7162a1e7012,
      h 0xf4d5d6e3ae2e36f7a099a2a7ed72432b173f3211c0c2b4d4e10e023030428829, 9⟩,
     ⟨h 0x720c52d0a1382db2c1c8d60502578d5497139182e5b52988ca96a2e2cb5ed81b,
      h 0x9594a5a6bf52685e0fbfbc9b10d02baa4525837fe7774cbe86ab5b96dd15ee0d, 9⟩,
     ⟨h 0x59a07d6de141c8de3c5ac71197eba1b9a6de322e3b0f9762351108fa121a5917,
      h 0x363041ad41f0ee8819046ee2bf2af41bc94cd17bc7ba6ca712cc562d90460d19, 6⟩]⟩, some ⟨h 0x18e44caa78a914087fb81e8b2f92a312f29b10a94e857b3382ba000aac3b050f,
    some ⟨h 0xbf4245864783af356463b2c5af200bb87bc64171dd99a8ac0acc67bfa408f600,
      h 0xebbde6853f0d7fd5c795a751c763ee866f603ddd45a59a14ad1189f04105c506, 4⟩,
    [⟨h 0xf43f6817ec5d6bb0e0b42c4ba5264bb99096cfe99ece2ea7b15acc4e564d322d,
      h 0xf4d5d6e3ae2e36f7a099a2a7ed72432b173f3211c0c2b4d4e10e023030428829, 9⟩,
     ⟨h 0xa75741eac4c581fb3eec3358254af17c0014077e86cb926f448f3607a48ee40d,
      h 0x9594a5a6bf52685e0fbfbc9b10d02baa4525837fe7774cbe86ab5b96dd15ee0d, 9⟩,
     ⟨h 0x1a2d6c63254ba1b0e860c99dedf9a3a1038e7dc589fd9a92b5d2eff7cd609c2a,
      h 0x363041ad41f0ee8819046ee2bf2af41bc94cd17bc7ba6ca712cc562d90460d19, 8⟩,
     ⟨h 0x345706989a0657a16b5c14414657b429c857f9cc0ce0be40174c12c214a9061e,
      h 0x59a07d6de141c8de3c5ac71197eba1b9a6de322e3b0f9762351108fa121a5917, 6⟩]⟩),
    commonStateRoot := none,
    stateKey := some (h 0xebbde6853f0d7fd5c795a751c763ee866f603ddd45a59a14ad1189f04105c506),
    stateUpdate := some (some ⟨h 0x0000000000000000000000000000000000000000000000000000000000000003, h 0x0000000000000000000000000000000000000000000000000000000000000000⟩,
    some ⟨h 0x0000000000000000000000000000000000000000000000000000000000000003, h 0x0000000000000000000000000000000000000000000000000000000000000133⟩) }

/-- /repo/src/traces/empty_storage_type_2_update_a.json, lines 1-144. -/
def empty_storage_type_2_update_a : SMTTrace :=
  { address := Spec.beBytes 20 0x0101010101010101010101010101010101010101,
    accountKey := h 0x2368fc91ec42cf498e51d1796cfcacf1efb26920e114962fb9c4763b1080341d,
    accountPath := (⟨h 0xb696019bc06c70a975c602aa0d7a1fa25c04e18cf48d7b4ead1ad980481d6616,
    some ⟨h 0xd472374b1135b67ffc1d5414460fe3b4efaf31ce9ae4c83d1364ba87a9472a2c,
      h 0x2368fc91ec42cf498e51d1796cfcacf1efb26920e114962fb9c4763b1080341d, 4⟩,
    [⟨h 0xa8ba04fc659bc821c6dbc1f6775dcb9e83dd215a1943c6a6c5375bdb65498b24,
      h 0xa66d39d51412f50d7df0c6388c765c74b023a3e5d9eba9cbc80b6ef17f76ab1e, 9⟩,
     ⟨h 0x339130a89388cf0ced2bb4f9b4e5073930e4121e16ee46e301acfcce18a3220d,
      h 0xf485d05d32be22082faed55e8c38826fec4a8250f41ce4639d51fb249c322127, 9⟩,
     ⟨h 0x1488ae111aac349974efc97e73fc7415540a43249af5155997dbb0c2f22fc201,
      h 0xebb8b01466f6764df4b8b2a3d180b849b9616c536c0a4b6f107e3b10a739761e, 6⟩]⟩,
    ⟨h 0x3630c1fc10b0712ce42a7ea80aab96f959c0ee18f1357a68c04f244f3f45a224,
    some ⟨h 0xc68c138b7bf413375e49b21e3d86eec221d4ad5261d15298889d29cab28d6814,
      h 0x2368fc91ec42cf498e51d1796cfcacf1efb26920e114962fb9c4763b1080341d, 4⟩,
    [⟨h 0x570ae52fb01033d690c7265832c37c1177c68deec178ed9d1b33fc2379a42b08,
      h 0xa66d39d51412f50d7df0c6388c765c74b023a3e5d9eba9cbc80b6ef17f76ab1e, 9⟩,
     ⟨h 0x0c6f6cc1ebc4a74e6c249d6c84de7f775f2f6ddc429dffd7c4d972bf81f6d310,
      h 0xf485d05d32be22082faed55e8c38826fec4a8250f41ce4639d51fb249c322127, 9⟩,
     ⟨h 0xd87b24034564326cbaaf90ed5b2a85cf6db067aeb538a6ead52e91ee238db129,
      h 0xebb8b01466f6764df4b8b2a3d180b849b9616c536c0a4b6f107e3b10a739761e, 6⟩]⟩),
    accountUpdate := (some ⟨0, 0x1, 0x0,
      0x0, 0⟩,
      some ⟨0, 0x1, 0x0,
      0x0, 0⟩),
    statePath := (some ⟨h 0x9f8447ba78ad7e1c7566d9242c8c6d77f02dfe081717cb0a1fe024485735290e,
    none,
    [⟨h 0x233ebad9cd643db2577e9a70c76a24705fc5e4f3b450c3bdcab4b7162a1e7012,
      h 0xf4d5d6e3ae2e36f7a099a2a7ed72432b173f3211c0c2b4d4e10e023030428829, 9⟩,
     ⟨h 0x9594a5a6bf52685e0fbfbc9b10d02baa4525837fe7774cbe86ab5b96dd15ee0d,
      h 0x720c52d0a1382db2c1c8d60502578d5497139182e5b52988ca96a2e2cb5ed81b, 9⟩,
     ⟨h 0xf5ddf83d9e16d65c3bacd2e8093581d7c5da48dd8cf2ea7b3d07b15adbe2d525,
      h 0x1159be0b5a22d4285fa446314948200958a5752517fbd165e9151c1ca978e601, 9⟩,
     ⟨h 0x0000000000000000000000000000000000000000000000000000000000000000,
      h 0xb708b9dd7dd910bd3aff840e6b5c57b3a539aa8177c0403d56a252bfced52a2a, 7⟩]⟩, some ⟨h 0x39c51c95828f752fff0a45a4aad485e8ce3a67bb690d4813d55f5d586b943d28,
    some ⟨h 0xbf4245864783af356463b2c5af200bb87bc64171dd99a8ac0acc67bfa408f600,
      h 0xd15631dde47d33a3a51eba7eae19cd91bcfa31af04f9f862dc086ab1f757761c, 4⟩,
    [⟨h 0x3107aa2b137a3ecee6225245b59c4efbaea3c269a69b50a89d18ac96636a081a,
      h 0xf4d5d6e3ae2e36f7a099a2a7ed72432b173f3211c0c2b4d4e10e023030428829, 9⟩,
     ⟨h 0x4d6e294449fadb158d2cfa7c6409412bc0f82123f9115eb4044a2c3b83d8f513,
      h 0x720c52d0a1382db2c1c8d60502578d5497139182e5b52988ca96a2e2cb5ed81b, 9⟩,
     ⟨h 0xafe665ce22fd76a2a0fd4e190d1f7081128e23eced889a7214c87b536c790501,
      h 0x1159be0b5a22d4285fa446314948200958a5752517fbd165e9151c1ca978e601, 9⟩,
     ⟨h 0xf8eee5c40ebcb807d2820ca1b70b44a83fe1c0afd5fcd56c8a589aa248d75203,
      h 0xb708b9dd7dd910bd3aff840e6b5c57b3a539aa8177c0403d56a252bfced52a2a, 7⟩]⟩),
    commonStateRoot := none,
    stateKey := some (h 0xd15631dde47d33a3a51eba7eae19cd91bcfa31af04f9f862dc086ab1f757761c),
    stateUpdate := some (some ⟨h 0x00000000000000000000000000000000000000000000000000000000000001f6, h 0x0000000000000000000000000000000000000000000000000000000000000000⟩,
    some ⟨h 0x00000000000000000000000000000000000000000000000000000000000001f6, h 0x0000000000000000000000000000000000000000000000000000000000000133⟩) }

/-- /repo/src/traces/empty_storage_type_2_update_b.json, lines 1-144. -/
def empty_storage_type_2_update_b : SMTTrace :=
  { address := Spec.beBytes 20 0x0101010101010101010101010101010101010101,
    accountKey := h 0x2368fc91ec42cf498e51d1796cfcacf1efb26920e114962fb9c4763b1080341d,
    accountPath := (⟨h 0xb696019bc06c70a975c602aa0d7a1fa25c04e18cf48d7b4ead1ad980481d6616,
    some ⟨h 0xd472374b1135b67ffc1d5414460fe3b4efaf31ce9ae4c83d1364ba87a9472a2c,
      h 0x2368fc91ec42cf498e51d1796cfcacf1efb26920e114962fb9c4763b1080341d, 4⟩,
    [⟨h 0xa8ba04fc659bc821c6dbc1f6775dcb9e83dd215a1943c6a6c5375bdb65498b24,
      h 0xa66d39d51412f50d7df0c6388c765c74b023a3e5d9eba9cbc80b6ef17f76ab1e, 9⟩,
     ⟨h 0x339130a89388cf0ced2bb4f9b4e5073930e4121e16ee46e301acfcce18a3220d,
      h 0xf485d05d32be22082faed55e8c38826fec4a8250f41ce4639d51fb249c322127, 9⟩,
     ⟨h 0x1488ae111aac349974efc97e73fc7415540a43249af5155997dbb0c2f22fc201,
      h 0xebb8b01466f6764df4b8b2a3d180b849b9616c536c0a4b6f107e3b10a739761e, 6⟩]⟩,
    ⟨h 0x1c8ed14e3acc3c48ac2ff30de56516f9f779c04b09baa957e2b3bf474e5c6811,
    some ⟨h 0xb4b44f01c466db3685bd0e5e016bcb45be5da612c252362aee0ea129716b6114,
      h 0x2368fc91ec42cf498e51d1796cfcacf1efb26920e114962fb9c4763b1080341d, 4⟩,
    [⟨h 0x68b506f7859b358437662e04b491a9dcf0beeb3c64a795ac5348fa6e04a7fb0e,
      h 0xa66d39d51412f50d7df0c6388c765c74b023a3e5d9eba9cbc80b6ef17f76ab1e, 9⟩,
     ⟨h 0x9bbd3ec8ba0ee44923298615dc1355313b99ece5cf10354856af33ab4fc69c1b,
      h 0xf485d05d32be22082faed55e8c38826fec4a8250f41ce4639d51fb249c322127, 9⟩,
     ⟨h 0x65e0c483d7a3f4c7e2d92cc2fb95538712cf5ae8d71973e40b5449f93f8ef308,
      h 0xebb8b01466f6764df4b8b2a3d180b849b9616c536c0a4b6f107e3b10a739761e, 6⟩]⟩),
    accountUpdate := (some ⟨0, 0x1, 0x0,
      0x0, 0⟩,
      some ⟨0, 0x1, 0x0,
      0x0, 0⟩),
    statePath := (some ⟨h 0x9f8447ba78ad7e1c7566d9242c8c6d77f02dfe081717cb0a1fe024485735290e,
    none,
    [⟨h 0x233ebad9cd643db2577e9a70c76a24705fc5e4f3b450c3bdcab4b7162a1e7012,
      h 0xf4d5d6e3ae2e36f7a099a2a7ed72432b173f3211c0c2b4d4e10e023030428829, 9⟩,
     ⟨h 0x9594a5a6bf52685e0fbfbc9b10d02baa4525837fe7774cbe86ab5b96dd15ee0d,
      h 0x720c52d0a1382db2c1c8d60502578d5497139182e5b52988ca96a2e2cb5ed81b, 9⟩,
     ⟨h 0x1159be0b5a22d4285fa446314948200958a5752517fbd165e9151c1ca978e601,
      h 0xf5ddf83d9e16d65c3bacd2e8093581d7c5da48dd8cf2ea7b3d07b15adbe2d525, 9⟩,
     ⟨h 0x0000000000000000000000000000000000000000000000000000000000000000,
      h 0xa1e945602598269f8a2a639969f2abda2ad190337d489adda7ebb16c5693d021, 8⟩]⟩, some ⟨h 0x5bd19d96b0c37ac7ef57c429eb02bc447ddecd013b6005c41878b5c9e8a7f90a,
    some ⟨h 0xbf4245864783af356463b2c5af200bb87bc64171dd99a8ac0acc67bfa408f600,
      h 0xdd5604412ca6840ca95fa06554b3d78df7b5ce751c48259a50e1d781a6b53613, 4⟩,
    [⟨h 0xe927005f5f8a8edf6f9b5ccff22a0cb9ddcf1841ec28f26baa1179296d4e1218,
      h 0xf4d5d6e3ae2e36f7a099a2a7ed72432b173f3211c0c2b4d4e10e023030428829, 9⟩,
     ⟨h 0x05f4fe08f426f5cd4cd9ecc8d1ff49efdd504b4df47b5f91e27166781a63270b,
      h 0x720c52d0a1382db2c1c8d60502578d5497139182e5b52988ca96a2e2cb5ed81b, 9⟩,
     ⟨h 0xb1ed8e1e50666bf29208dc9570e01759ee24b9b02db70bd842ed687c0dfe0800,
      h 0xf5ddf83d9e16d65c3bacd2e8093581d7c5da48dd8cf2ea7b3d07b15adbe2d525, 9⟩,
     ⟨h 0x6bc2da984016a256af4256511fa2ff0a47b2c96f45ddebe33689270212c5c218,
      h 0xa1e945602598269f8a2a639969f2abda2ad190337d489adda7ebb16c5693d021, 8⟩]⟩),
    commonStateRoot := none,
    stateKey := some (h 0xdd5604412ca6840ca95fa06554b3d78df7b5ce751c48259a50e1d781a6b53613),
    stateUpdate := some (some ⟨h 0x00000000000000000000000000000000000000000000000000000000000001f4, h 0x0000000000000000000000000000000000000000000000000000000000000000⟩,
    some ⟨h 0x00000000000000000000000000000000000000000000000000000000000001f4, h 0x0000000000000000000000000000000000000000000000000000000000000133⟩) }

/-- /repo/src/traces/depth_1_type_1_storage.json, lines 1-129. -/
def depth_1_type_1_storage : SMTTrace :=
  { address := Spec.beBytes 20 0x03f8133dd5ed58838b20af1296f62f44e69baa48,
    accountKey := h 0x5cc5740d42ad79f1b9ce9451a084e26632cc9aee8ee7f747a29d07bf8863ed1b,
    accountPath := (⟨h 0x75350e959b64b865c76737751c9cfa23f1e35aa416810b8f6b655c85b07aca1c,
    some ⟨h 0x779a269cc632a5d2668d20b01b20489fde58941b322fde4677ef2ebe118e6f20,
      h 0x5cc5740d42ad79f1b9ce9451a084e26632cc9aee8ee7f747a29d07bf8863ed1b, 4⟩,
    [⟨h 0x109004f4385fc231bee2a20b2921e1a9088636bfdb690a647121e1c605de0f01,
      h 0xe5c1fc68d2b728115a6f79fb38ee57ffff5859ebec9caaa7bc54986119ee5c02, 9⟩,
     ⟨h 0x0359541ab054404bc94af4188de1df74e1cdc8bc80aacb8d9944fe416b2fe621,
      h 0xd454ada20a5db3b7ace82d2bf8aead0ef7da859582da4de86e71cf822ebcc827, 9⟩,
     ⟨h 0xa69528847504d7d3ce4bc46bb04b82382dda2df17a911c6b299312bcdf06b62f,
      h 0xf9b45f4acabaa7e6937d8dac46059c85188c93404b8b81762c3c1da5746acd0f, 6⟩]⟩,
    ⟨h 0xb0cc90cb23834dbcf7c3c359dc13d92bf8e1ab972222db24f37c607502457329,
    some ⟨h 0xb23690306d435fcd7851b61f9e5b584cb2b799b383df49b8aac578759ded7a04,
      h 0x5cc5740d42ad79f1b9ce9451a084e26632cc9aee8ee7f747a29d07bf8863ed1b, 4⟩,
    [⟨h 0xd45136e52dbf61f56933cf3f6a1963e6e1e7f9d8a5ff3de6ceeb4b43ea04b91d,
      h 0xe5c1fc68d2b728115a6f79fb38ee57ffff5859ebec9caaa7bc54986119ee5c02, 9⟩,
     ⟨h 0x9034c0822065b65b03ad4b45e28f8b5d4e1d0ae0c0a3ea0fc582d30ed4e16b00,
      h 0xd454ada20a5db3b7ace82d2bf8aead0ef7da859582da4de86e71cf822ebcc827, 9⟩,
     ⟨h 0x27bc4f663b5a51827390b6940763918440f96cea2bbbaf3d6bc386489d60ba11,
      h 0xf9b45f4acabaa7e6937d8dac46059c85188c93404b8b81762c3c1da5746acd0f, 6⟩]⟩),
    accountUpdate := (some ⟨1, 0x0, 0x16fc66d15010e6213d2a009f57ed8e847717ea0b83eeb37cd322e9ad1b018a3e,
      0xd85b09a93d5ed99a87d27dcf6d50e4459d16bb694e70f89eefcb745ea1c85e7, 4507⟩,
      some ⟨1, 0x0, 0x16fc66d15010e6213d2a009f57ed8e847717ea0b83eeb37cd322e9ad1b018a3e,
      0xd85b09a93d5ed99a87d27dcf6d50e4459d16bb694e70f89eefcb745ea1c85e7, 4507⟩),
    statePath := (some ⟨h 0xa6d1ca9e941bc47b27ef7bbbecb327d2e3183ab6b729014b2f33f70a079f610a,
    some ⟨h 0x2e1cb8b9dc00f6834b26d763e0733c3045a0e2262f5b4a1fd16a99b099b8dc0a,
      h 0xebbde6853f0d7fd5c795a751c763ee866f603ddd45a59a14ad1189f04105c506, 4⟩,
    [⟨h 0xb2f29b80761a58f1144c3afeb97b7a8d8ddb9fe9bbbd2efabec9401a7937980a,
      h 0xd1a4b5f37b62fd698f85d93925f579394db4404e186f21e6df6670f23bc9d027, 6⟩]⟩, some ⟨h 0x94571a8d28220d48d3db2ee8be4a4f42fb20e4c09325397bc4e36d80f0de3b21,
    some ⟨h 0x937d5f0461f0cc3c2607ade7f55e4c0952b5977d73a97392e054f0c95b3f3300,
      h 0x775788db2d0c83b883dc4705090775d5ba4fdca68379a90e9c48e3b6529ded1a, 4⟩,
    [⟨h 0x37f76144ee25efb94ae9609251c9fa4cd19648d74454805bfab59183fad1eb01,
      h 0xd1a4b5f37b62fd698f85d93925f579394db4404e186f21e6df6670f23bc9d027, 7⟩,
     ⟨h 0x766dfedbd4683dff3d7e1fbd3c274a1cf2b4286c369e4bf7b69a0ef0bb364710,
      h 0x0000000000000000000000000000000000000000000000000000000000000000, 7⟩,
     ⟨h 0x804597600908545e7ba96b5f7e3b3010d6d041af15226770d6f9886286d72313,
      h 0xb2f29b80761a58f1144c3afeb97b7a8d8ddb9fe9bbbd2efabec9401a7937980a, 6⟩]⟩),
    commonStateRoot := none,
    stateKey := some (h 0x775788db2d0c83b883dc4705090775d5ba4fdca68379a90e9c48e3b6529ded1a),
    stateUpdate := some (some ⟨h 0x0000000000000000000000000000000000000000000000000000000000000005, h 0x0000000000000000000000000000000000000000000000000000000000000000⟩,
    some ⟨h 0x0000000000000000000000000000000000000000000000000000000000000005, h 0x000000000000000000001c5a77d9fa7ef466951b2f01f724bca3a5820b630012⟩) }

/-- /repo/src/traces/insert_into_singleton_storage_trie.json, lines 1-112. -/
def insert_into_singleton_storage_trie : SMTTrace :=
  { address := Spec.beBytes 20 0x0101010101010101010101010101010101010101,
    accountKey := h 0x2368fc91ec42cf498e51d1796cfcacf1efb26920e114962fb9c4763b1080341d,
    accountPath := (⟨h 0x83b9340c6a33165701daa415c32625ff2cf62956a23fa3229182d801b4aaaf17,
    some ⟨h 0xf4d0c4b8b5e226544d147596eb560ce0e34f0397d126a4b3f0f34a3ef9f74103,
      h 0x2368fc91ec42cf498e51d1796cfcacf1efb26920e114962fb9c4763b1080341d, 4⟩,
    [⟨h 0xe9d253e605a354db69343ff5f4184719df70a413ca8fe399d9a701f21f641a16,
      h 0xa66d39d51412f50d7df0c6388c765c74b023a3e5d9eba9cbc80b6ef17f76ab1e, 9⟩,
     ⟨h 0x41bdefdca0b4003f8528065c189004814835b182f42a6d4df873f5cd0b42ea24,
      h 0xf485d05d32be22082faed55e8c38826fec4a8250f41ce4639d51fb249c322127, 9⟩,
     ⟨h 0xfa899826153ef28c7baf78e37799a8d9b4b59e612bc29e44d8519de254349b0b,
      h 0xebb8b01466f6764df4b8b2a3d180b849b9616c536c0a4b6f107e3b10a739761e, 6⟩]⟩,
    ⟨h 0x5bd928092961b8afe05adf64c42fcaf762698ac9fa7a8e210b77c53c958bdd0d,
    some ⟨h 0xecb1e80fe56518f7715d59f4127704ec8df5c63c4e0d7d69737ea4c4703ea917,
      h 0x2368fc91ec42cf498e51d1796cfcacf1efb26920e114962fb9c4763b1080341d, 4⟩,
    [⟨h 0x9883bd3c95e670456325da92f066458fe3b086084d53b17d20d99b4a2dd64918,
      h 0xa66d39d51412f50d7df0c6388c765c74b023a3e5d9eba9cbc80b6ef17f76ab1e, 9⟩,
     ⟨h 0xa4d6b9ea2ee4a2c857c98f1d6a88dcd1a750d1b1d0c12f0c2eb07bdb008bb701,
      h 0xf485d05d32be22082faed55e8c38826fec4a8250f41ce4639d51fb249c322127, 9⟩,
     ⟨h 0x5b3ed283b85cf3b486d003219054470d79fc2a4d76c9e640ed858405de9dd62f,
      h 0xebb8b01466f6764df4b8b2a3d180b849b9616c536c0a4b6f107e3b10a739761e, 6⟩]⟩),
    accountUpdate := (some ⟨0, 0x1, 0x0,
      0x0, 0⟩,
      some ⟨0, 0x1, 0x0,
      0x0, 0⟩),
    statePath := (some ⟨h 0xf98272a84a0b269ca8570319baf2c68ebacb038a0e1076787aa85d547ff2cb07,
    some ⟨h 0x7934cd98d51fd603e653f6b03b13edc269299a100867174016312db42eff3a2c,
      h 0x55dbbd501fc21ad03be98003051b7bd08cdae7e153eefada883227167d198002, 4⟩,
    []⟩, some ⟨h 0x33aebe70c4315501e6367ceca3feb4cc404ffb710e393b1d4cfff3f553233c09,
    some ⟨h 0x8564322fa664ff339902ab3e0a20582a4c65ca1bb8dfc1be45bfa48f0e43b20e,
      h 0x84d212cc2c8afac2fe17b77867a38d5b9e1308b0b8b723df2ea83728579b5a0a, 4⟩,
    [⟨h 0xe24a038e861c1be4dc33eda4c42c49e47d90532fe2e129bfc8b93504c8d0d32a,
      h 0xf98272a84a0b269ca8570319baf2c68ebacb038a0e1076787aa85d547ff2cb07, 6⟩]⟩),
    commonStateRoot := none,
    stateKey := some (h 0x84d212cc2c8afac2fe17b77867a38d5b9e1308b0b8b723df2ea83728579b5a0a),
    stateUpdate := some (some ⟨h 0x00000000000000500000000000000046000000000000003c0000000000000032, h 0x0000000000000000000000000000000000000000000000000000000000000000⟩,
    some ⟨h 0x00000000000000500000000000000046000000000000003c0000000000000032, h 0x0000000000000008000000000000000700000000000000060000000000000005⟩) }

/-- Entry 0 of /repo/src/traces/createNameRegistratorPerTxsNotEnoughGas_d0_g0_v0.json. -/
def createName0 : SMTTrace :=
  { address := Spec.beBytes 20 0x2adc25665018aa1fe0e6bc666dac8fc2697ff9ba,
    accountKey := h 0x0c2b7a2233683ca3fdf4cb670d06fffdeb11ad0592b1e7cad87e3e3cc7bcf805,
    accountPath := (⟨h 0x252e31fcfd8f15f35cf1db8a250dc2f9920414047047f8263f509b2ec9d7dd03,
    some ⟨h 0x0fd348b83e56090b7525967291ba6ae3c06f43cb926a41018b279747d702d329,
      h 0x44ef89daadd3a70d440f9af05579a1f73d2d9407710c524f21903ee56f3f3f1a, 4⟩,
    []⟩,
    ⟨h 0x252e31fcfd8f15f35cf1db8a250dc2f9920414047047f8263f509b2ec9d7dd03,
    some ⟨h 0x0fd348b83e56090b7525967291ba6ae3c06f43cb926a41018b279747d702d329,
      h 0x44ef89daadd3a70d440f9af05579a1f73d2d9407710c524f21903ee56f3f3f1a, 4⟩,
    []⟩),
    accountUpdate := (none,
      none),
    statePath := (none, none),
    commonStateRoot := some (h 0x0000000000000000000000000000000000000000000000000000000000000000),
    stateKey := none,
    stateUpdate := none }

/-- Entry 1 of /repo/src/traces/createNameRegistratorPerTxsNotEnoughGas_d0_g0_v0.json. -/
def createName1 : SMTTrace :=
  { address := Spec.beBytes 20 0x6295ee1b4f6dd65047762f924ecd367c17eabf8f,
    accountKey := h 0x293ccdc4280a75784fbdf8c7ae69b76e0852a88b140a7f330f49783d1347f626,
    accountPath := (⟨h 0x252e31fcfd8f15f35cf1db8a250dc2f9920414047047f8263f509b2ec9d7dd03,
    some ⟨h 0x0fd348b83e56090b7525967291ba6ae3c06f43cb926a41018b279747d702d329,
      h 0x44ef89daadd3a70d440f9af05579a1f73d2d9407710c524f21903ee56f3f3f1a, 4⟩,
    []⟩,
    ⟨h 0x252e31fcfd8f15f35cf1db8a250dc2f9920414047047f8263f509b2ec9d7dd03,
    some ⟨h 0x0fd348b83e56090b7525967291ba6ae3c06f43cb926a41018b279747d702d329,
      h 0x44ef89daadd3a70d440f9af05579a1f73d2d9407710c524f21903ee56f3f3f1a, 4⟩,
    []⟩),
    accountUpdate := (none,
      none),
    statePath := (none, none),
    commonStateRoot := some (h 0x0000000000000000000000000000000000000000000000000000000000000000),
    stateKey := none,
    stateUpdate := none }

/-- Entry 2 of /repo/src/traces/createNameRegistratorPerTxsNotEnoughGas_d0_g0_v0.json. -/
def createName2 : SMTTrace :=
  { address := Spec.beBytes 20 0x6295ee1b4f6dd65047762f924ecd367c17eabf8f,
    accountKey := h 0x293ccdc4280a75784fbdf8c7ae69b76e0852a88b140a7f330f49783d1347f626,
    accountPath := (⟨h 0x252e31fcfd8f15f35cf1db8a250dc2f9920414047047f8263f509b2ec9d7dd03,
    some ⟨h 0x0fd348b83e56090b7525967291ba6ae3c06f43cb926a41018b279747d702d329,
      h 0x44ef89daadd3a70d440f9af05579a1f73d2d9407710c524f21903ee56f3f3f1a, 4⟩,
    []⟩,
    ⟨h 0x252e31fcfd8f15f35cf1db8a250dc2f9920414047047f8263f509b2ec9d7dd03,
    some ⟨h 0x0fd348b83e56090b7525967291ba6ae3c06f43cb926a41018b279747d702d329,
      h 0x44ef89daadd3a70d440f9af05579a1f73d2d9407710c524f21903ee56f3f3f1a, 4⟩,
    []⟩),
    accountUpdate := (none,
      none),
    statePath := (none, none),
    commonStateRoot := some (h 0x0000000000000000000000000000000000000000000000000000000000000000),
    stateKey := none,
    stateUpdate := none }

/-- Entry 3 of /repo/src/traces/createNameRegistratorPerTxsNotEnoughGas_d0_g0_v0.json. -/
def createName3 : SMTTrace :=
  { address := Spec.beBytes 20 0x6295ee1b4f6dd65047762f924ecd367c17eabf8f,
    accountKey := h 0x293ccdc4280a75784fbdf8c7ae69b76e0852a88b140a7f330f49783d1347f626,
    accountPath := (⟨h 0x252e31fcfd8f15f35cf1db8a250dc2f9920414047047f8263f509b2ec9d7dd03,
    some ⟨h 0x0fd348b83e56090b7525967291ba6ae3c06f43cb926a41018b279747d702d329,
      h 0x44ef89daadd3a70d440f9af05579a1f73d2d9407710c524f21903ee56f3f3f1a, 4⟩,
    []⟩,
    ⟨h 0x252e31fcfd8f15f35cf1db8a250dc2f9920414047047f8263f509b2ec9d7dd03,
    some ⟨h 0x0fd348b83e56090b7525967291ba6ae3c06f43cb926a41018b279747d702d329,
      h 0x44ef89daadd3a70d440f9af05579a1f73d2d9407710c524f21903ee56f3f3f1a, 4⟩,
    []⟩),
    accountUpdate := (none,
      none),
    statePath := (none, none),
    commonStateRoot := some (h 0x0000000000000000000000000000000000000000000000000000000000000000),
    stateKey := none,
    stateUpdate := none }

/-- Entry 4 of /repo/src/traces/createNameRegistratorPerTxsNotEnoughGas_d0_g0_v0.json. -/
def createName4 : SMTTrace :=
  { address := Spec.beBytes 20 0x6295ee1b4f6dd65047762f924ecd367c17eabf8f,
    accountKey := h 0x293ccdc4280a75784fbdf8c7ae69b76e0852a88b140a7f330f49783d1347f626,
    accountPath := (⟨h 0x252e31fcfd8f15f35cf1db8a250dc2f9920414047047f8263f509b2ec9d7dd03,
    some ⟨h 0x0fd348b83e56090b7525967291ba6ae3c06f43cb926a41018b279747d702d329,
      h 0x44ef89daadd3a70d440f9af05579a1f73d2d9407710c524f21903ee56f3f3f1a, 4⟩,
    []⟩,
    ⟨h 0x252e31fcfd8f15f35cf1db8a250dc2f9920414047047f8263f509b2ec9d7dd03,
    some ⟨h 0x0fd348b83e56090b7525967291ba6ae3c06f43cb926a41018b279747d702d329,
      h 0x44ef89daadd3a70d440f9af05579a1f73d2d9407710c524f21903ee56f3f3f1a, 4⟩,
    []⟩),
    accountUpdate := (none,
      none),
    statePath := (none, none),
    commonStateRoot := some (h 0x0000000000000000000000000000000000000000000000000000000000000000),
    stateKey := none,
    stateUpdate := none }

/-- Entry 5 of /repo/src/traces/createNameRegistratorPerTxsNotEnoughGas_d0_g0_v0.json. -/
def createName5 : SMTTrace :=
  { address := Spec.beBytes 20 0xa94f5374fce5edbc8e2a8697c15331677e6ebf0b,
    accountKey := h 0x44ef89daadd3a70d440f9af05579a1f73d2d9407710c524f21903ee56f3f3f1a,
    accountPath := (⟨h 0x252e31fcfd8f15f35cf1db8a250dc2f9920414047047f8263f509b2ec9d7dd03,
    some ⟨h 0x0fd348b83e56090b7525967291ba6ae3c06f43cb926a41018b279747d702d329,
      h 0x44ef89daadd3a70d440f9af05579a1f73d2d9407710c524f21903ee56f3f3f1a, 4⟩,
    []⟩,
    ⟨h 0x21c93afa043be744e054aa90a3021bc3c28df7eb73686826fdb1af882db68d00,
    some ⟨h 0x01a0cb636f821145c93f3fe1c01ef770710634b11442e684e9b2a3a5661ea11c,
      h 0x44ef89daadd3a70d440f9af05579a1f73d2d9407710c524f21903ee56f3f3f1a, 4⟩,
    []⟩),
    accountUpdate := (some ⟨0, 0xde0b6b3a7640000, 0xc5d2460186f7233c927e7db2dcc703c0e500b653ca82273b7bfad8045d85a470,
      0x2098f5fb9e239eab3ceac3f27b81e481dc3124d55ffed523a839ee8446b64864, 0⟩,
      some ⟨1, 0xde0b6b3a7640000, 0xc5d2460186f7233c927e7db2dcc703c0e500b653ca82273b7bfad8045d85a470,
      0x2098f5fb9e239eab3ceac3f27b81e481dc3124d55ffed523a839ee8446b64864, 0⟩),
    statePath := (none, none),
    commonStateRoot := some (h 0x0000000000000000000000000000000000000000000000000000000000000000),
    stateKey := none,
    stateUpdate := none }

/-- Entry 6 of /repo/src/traces/createNameRegistratorPerTxsNotEnoughGas_d0_g0_v0.json. -/
def createName6 : SMTTrace :=
  { address := Spec.beBytes 20 0xa94f5374fce5edbc8e2a8697c15331677e6ebf0b,
    accountKey := h 0x44ef89daadd3a70d440f9af05579a1f73d2d9407710c524f21903ee56f3f3f1a,
    accountPath := (⟨h 0x21c93afa043be744e054aa90a3021bc3c28df7eb73686826fdb1af882db68d00,
    some ⟨h 0x01a0cb636f821145c93f3fe1c01ef770710634b11442e684e9b2a3a5661ea11c,
      h 0x44ef89daadd3a70d440f9af05579a1f73d2d9407710c524f21903ee56f3f3f1a, 4⟩,
    []⟩,
    ⟨h 0xb6a81800a5caa2576fc916d7b53dd7abc0439a6b80d177394b3fe0e00b8bbf2e,
    some ⟨h 0xf90e9fb8011123e5fe020cd4d65c150902658a2ef051090d46c6f48de6d2d405,
      h 0x44ef89daadd3a70d440f9af05579a1f73d2d9407710c524f21903ee56f3f3f1a, 4⟩,
    []⟩),
    accountUpdate := (some ⟨1, 0xde0b6b3a7640000, 0xc5d2460186f7233c927e7db2dcc703c0e500b653ca82273b7bfad8045d85a470,
      0x2098f5fb9e239eab3ceac3f27b81e481dc3124d55ffed523a839ee8446b64864, 0⟩,
      some ⟨1, 0xde0b6b3a75b6e5e, 0xc5d2460186f7233c927e7db2dcc703c0e500b653ca82273b7bfad8045d85a470,
      0x2098f5fb9e239eab3ceac3f27b81e481dc3124d55ffed523a839ee8446b64864, 0⟩),
    statePath := (none, none),
    commonStateRoot := some (h 0x0000000000000000000000000000000000000000000000000000000000000000),
    stateKey := none,
    stateUpdate := none }

/-- Entry 7 of /repo/src/traces/createNameRegistratorPerTxsNotEnoughGas_d0_g0_v0.json. -/
def createName7 : SMTTrace :=
  { address := Spec.beBytes 20 0x5300000000000000000000000000000000000000,
    accountKey := h 0x0e246ded53daafa183c0d7b6ff1427e8318b63f416ac264dd3ea5ff3dc9b3808,
    accountPath := (⟨h 0xb6a81800a5caa2576fc916d7b53dd7abc0439a6b80d177394b3fe0e00b8bbf2e,
    some ⟨h 0xf90e9fb8011123e5fe020cd4d65c150902658a2ef051090d46c6f48de6d2d405,
      h 0x44ef89daadd3a70d440f9af05579a1f73d2d9407710c524f21903ee56f3f3f1a, 4⟩,
    []⟩,
    ⟨h 0xb6a81800a5caa2576fc916d7b53dd7abc0439a6b80d177394b3fe0e00b8bbf2e,
    some ⟨h 0xf90e9fb8011123e5fe020cd4d65c150902658a2ef051090d46c6f48de6d2d405,
      h 0x44ef89daadd3a70d440f9af05579a1f73d2d9407710c524f21903ee56f3f3f1a, 4⟩,
    []⟩),
    accountUpdate := (none,
      none),
    statePath := (none, none),
    commonStateRoot := some (h 0x0000000000000000000000000000000000000000000000000000000000000000),
    stateKey := some (h 0x0000000000000000000000000000000000000000000000000000000000000000),
    stateUpdate := none }

/-- Entry 8 of /repo/src/traces/createNameRegistratorPerTxsNotEnoughGas_d0_g0_v0.json. -/
def createName8 : SMTTrace :=
  { address := Spec.beBytes 20 0x5300000000000000000000000000000000000002,
    accountKey := h 0xc964ea4804d91b686d3213d75187b806cca56a03a8e669c905fbd1e415689a13,
    accountPath := (⟨h 0xb6a81800a5caa2576fc916d7b53dd7abc0439a6b80d177394b3fe0e00b8bbf2e,
    some ⟨h 0xf90e9fb8011123e5fe020cd4d65c150902658a2ef051090d46c6f48de6d2d405,
      h 0x44ef89daadd3a70d440f9af05579a1f73d2d9407710c524f21903ee56f3f3f1a, 4⟩,
    []⟩,
    ⟨h 0xb6a81800a5caa2576fc916d7b53dd7abc0439a6b80d177394b3fe0e00b8bbf2e,
    some ⟨h 0xf90e9fb8011123e5fe020cd4d65c150902658a2ef051090d46c6f48de6d2d405,
      h 0x44ef89daadd3a70d440f9af05579a1f73d2d9407710c524f21903ee56f3f3f1a, 4⟩,
    []⟩),
    accountUpdate := (none,
      none),
    statePath := (none, none),
    commonStateRoot := some (h 0x0000000000000000000000000000000000000000000000000000000000000000),
    stateKey := some (h 0x0000000000000000000000000000000000000000000000000000000000000001),
    stateUpdate := none }

/-- Entry 9 of /repo/src/traces/createNameRegistratorPerTxsNotEnoughGas_d0_g0_v0.json. -/
def createName9 : SMTTrace :=
  { address := Spec.beBytes 20 0x5300000000000000000000000000000000000002,
    accountKey := h 0xc964ea4804d91b686d3213d75187b806cca56a03a8e669c905fbd1e415689a13,
    accountPath := (⟨h 0xb6a81800a5caa2576fc916d7b53dd7abc0439a6b80d177394b3fe0e00b8bbf2e,
    some ⟨h 0xf90e9fb8011123e5fe020cd4d65c150902658a2ef051090d46c6f48de6d2d405,
      h 0x44ef89daadd3a70d440f9af05579a1f73d2d9407710c524f21903ee56f3f3f1a, 4⟩,
    []⟩,
    ⟨h 0xb6a81800a5caa2576fc916d7b53dd7abc0439a6b80d177394b3fe0e00b8bbf2e,
    some ⟨h 0xf90e9fb8011123e5fe020cd4d65c150902658a2ef051090d46c6f48de6d2d405,
      h 0x44ef89daadd3a70d440f9af05579a1f73d2d9407710c524f21903ee56f3f3f1a, 4⟩,
    []⟩),
    accountUpdate := (none,
      none),
    statePath := (none, none),
    commonStateRoot := some (h 0x0000000000000000000000000000000000000000000000000000000000000000),
    stateKey := some (h 0x0000000000000000000000000000000000000000000000000000000000000002),
    stateUpdate := none }

/-- Entry 10 of /repo/src/traces/createNameRegistratorPerTxsNotEnoughGas_d0_g0_v0.json. -/
def createName10 : SMTTrace :=
  { address := Spec.beBytes 20 0x5300000000000000000000000000000000000002,
    accountKey := h 0xc964ea4804d91b686d3213d75187b806cca56a03a8e669c905fbd1e415689a13,
    accountPath := (⟨h 0xb6a81800a5caa2576fc916d7b53dd7abc0439a6b80d177394b3fe0e00b8bbf2e,
    some ⟨h 0xf90e9fb8011123e5fe020cd4d65c150902658a2ef051090d46c6f48de6d2d405,
      h 0x44ef89daadd3a70d440f9af05579a1f73d2d9407710c524f21903ee56f3f3f1a, 4⟩,
    []⟩,
    ⟨h 0xb6a81800a5caa2576fc916d7b53dd7abc0439a6b80d177394b3fe0e00b8bbf2e,
    some ⟨h 0xf90e9fb8011123e5fe020cd4d65c150902658a2ef051090d46c6f48de6d2d405,
      h 0x44ef89daadd3a70d440f9af05579a1f73d2d9407710c524f21903ee56f3f3f1a, 4⟩,
    []⟩),
    accountUpdate := (none,
      none),
    statePath := (none, none),
    commonStateRoot := some (h 0x0000000000000000000000000000000000000000000000000000000000000000),
    stateKey := some (h 0x0000000000000000000000000000000000000000000000000000000000000003),
    stateUpdate := none }

/-- Entry 11 of /repo/src/traces/createNameRegistratorPerTxsNotEnoughGas_d0_g0_v0.json. -/
def createName11 : SMTTrace :=
  { address := Spec.beBytes 20 0x6295ee1b4f6dd65047762f924ecd367c17eabf8f,
    accountKey := h 0x293ccdc4280a75784fbdf8c7ae69b76e0852a88b140a7f330f49783d1347f626,
    accountPath := (⟨h 0xb6a81800a5caa2576fc916d7b53dd7abc0439a6b80d177394b3fe0e00b8bbf2e,
    some ⟨h 0xf90e9fb8011123e5fe020cd4d65c150902658a2ef051090d46c6f48de6d2d405,
      h 0x44ef89daadd3a70d440f9af05579a1f73d2d9407710c524f21903ee56f3f3f1a, 4⟩,
    []⟩,
    ⟨h 0xb6a81800a5caa2576fc916d7b53dd7abc0439a6b80d177394b3fe0e00b8bbf2e,
    some ⟨h 0xf90e9fb8011123e5fe020cd4d65c150902658a2ef051090d46c6f48de6d2d405,
      h 0x44ef89daadd3a70d440f9af05579a1f73d2d9407710c524f21903ee56f3f3f1a, 4⟩,
    []⟩),
    accountUpdate := (none,
      none),
    statePath := (none, none),
    commonStateRoot := some (h 0x0000000000000000000000000000000000000000000000000000000000000000),
    stateKey := some (h 0x0000000000000000000000000000000000000000000000000000000000000001),
    stateUpdate := none }

/-- /repo/src/traces/createNameRegistratorPerTxsNotEnoughGas_d0_g0_v0.json, with the claim types. -/
def createName : List (MPTProofType × SMTTrace) :=
  [(.AccountDoesNotExist, createName0),
   (.NonceChanged, createName1),
   (.BalanceChanged, createName2),
   (.CodeHashExists, createName3),
   (.AccountDoesNotExist, createName4),
   (.NonceChanged, createName5),
   (.BalanceChanged, createName6),
   (.StorageDoesNotExist, createName7),
   (.StorageDoesNotExist, createName8),
   (.StorageDoesNotExist, createName9),
   (.StorageDoesNotExist, createName10),
   (.StorageDoesNotExist, createName11)]

end Mpt.Fixtures
