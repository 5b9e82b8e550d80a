import Verif.Fixtures.JsonCheck

set_option autoImplicit false

/-! # The JSON files of the repository (part 1) -/

namespace Mpt.Fixtures
open Mpt Types Serde Json Props

/-- /repo/src/traces/empty_account_type_1.json, lines 1-67. -/
def text_empty_account_type_1 : Text := utf8% r#"{
  "address": "0x0000000000000000000000000000000000000000",
  "accountKey": "0x228442949e7ba388bf9c08ec9374c72a579a39d2a1bf453d87dae5368c5f3c1d",
  "accountPath": [
    {
      "root": "0xb3e9ff02c109b1d6aefa774523aaf5bef1207226e85a3726ecb505227ad1e621",
      "leaf": {
        "value": "0xd5183cce27ff45da94689d72d862770b5d6ff7315de77ef74d4e4318ac14ea11",
        "sibling": "0x12c81213be899bb64430611a4aa90214650855786bbec94bc0aea8780cf7fb1f",
        "node_type": 4
      },
      "path": [
        {
          "value": "0xa66d39d51412f50d7df0c6388c765c74b023a3e5d9eba9cbc80b6ef17f76ab1e",
          "sibling": "0x4c132495916e6529f791ad1d6977c5b9cf8720a58a7f196ea6fae35dffd80c15",
          "node_type": 9
        },
        {
          "value": "0x03703ecd3a382e78f6dd10259d232f45e22b592e2c91c091f3333ba8fc8ddb0a",
          "sibling": "0x0893ab6eb7dfbe3908cf199964e5a8eaa42673fee2dc4cdfdff46a037e100a08",
          "node_type": 9
        },
        {
          "value": "0x936f5938a27c18791e4ed02b0a1ac88b3e09f4f8c3a84f1a9a75fa8f516ef902",
          "sibling": "0xd9c820802763f8140cd3557566054ddbddacb4433830a7bb0e30c1db08dfa914",
          "node_type": 6
        }
      ],
      "pathPart": "0x2"
    },
    {
      "root": "0xb3e9ff02c109b1d6aefa774523aaf5bef1207226e85a3726ecb505227ad1e621",
      "leaf": {
        "value": "0xd5183cce27ff45da94689d72d862770b5d6ff7315de77ef74d4e4318ac14ea11",
        "sibling": "0x12c81213be899bb64430611a4aa90214650855786bbec94bc0aea8780cf7fb1f",
        "node_type": 4
      },
      "path": [
        {
          "value": "0xa66d39d51412f50d7df0c6388c765c74b023a3e5d9eba9cbc80b6ef17f76ab1e",
          "sibling": "0x4c132495916e6529f791ad1d6977c5b9cf8720a58a7f196ea6fae35dffd80c15",
          "node_type": 9
        },
        {
          "value": "0x03703ecd3a382e78f6dd10259d232f45e22b592e2c91c091f3333ba8fc8ddb0a",
          "sibling": "0x0893ab6eb7dfbe3908cf199964e5a8eaa42673fee2dc4cdfdff46a037e100a08",
          "node_type": 9
        },
        {
          "value": "0x936f5938a27c18791e4ed02b0a1ac88b3e09f4f8c3a84f1a9a75fa8f516ef902",
          "sibling": "0xd9c820802763f8140cd3557566054ddbddacb4433830a7bb0e30c1db08dfa914",
          "node_type": 6
        }
      ],
      "pathPart": "0x2"
    }
  ],
  "accountUpdate": [
    null,
    null
  ],
  "statePath": [
    null,
    null
  ],
  "commonStateRoot": "0x0000000000000000000000000000000000000000000000000000000000000000"
}
"#

theorem file_empty_account_type_1 : SameFile text_empty_account_type_1 empty_account_type_1 :=
  sameFile_of 2 2 0 0 _ _ (by decide +kernel) (by decide +kernel)

/-- /repo/src/traces/empty_account_type_2.json, lines 1-57. -/
def text_empty_account_type_2 : Text := utf8% r#"{
  "address": "0x1414141414141414141414141414141414141414",
  "accountKey": "0x0528ff2808cf785c378aaf2765ac1000c537dbd43cb0022b2387f200ba160324",
  "accountPath": [
    {
      "root": "0xb3e9ff02c109b1d6aefa774523aaf5bef1207226e85a3726ecb505227ad1e621",
      "path": [
        {
          "value": "0x4c132495916e6529f791ad1d6977c5b9cf8720a58a7f196ea6fae35dffd80c15",
          "sibling": "0xa66d39d51412f50d7df0c6388c765c74b023a3e5d9eba9cbc80b6ef17f76ab1e",
          "node_type": 9
        },
        {
          "value": "0xf485d05d32be22082faed55e8c38826fec4a8250f41ce4639d51fb249c322127",
          "sibling": "0xea63c2cf7aaed65918936ba7b61df455d10abed099b690d5b14825ed27aa7e1a",
          "node_type": 9
        },
        {
          "value": "0x0000000000000000000000000000000000000000000000000000000000000000",
          "sibling": "0xa6a9b79363aac191b917d19aadd68390479fb9b83a481186e30beecf2c338812",
          "node_type": 8
        }
      ],
      "pathPart": "0x5"
    },
    {
      "root": "0xb3e9ff02c109b1d6aefa774523aaf5bef1207226e85a3726ecb505227ad1e621",
      "path": [
        {
          "value": "0x4c132495916e6529f791ad1d6977c5b9cf8720a58a7f196ea6fae35dffd80c15",
          "sibling": "0xa66d39d51412f50d7df0c6388c765c74b023a3e5d9eba9cbc80b6ef17f76ab1e",
          "node_type": 9
        },
        {
          "value": "0xf485d05d32be22082faed55e8c38826fec4a8250f41ce4639d51fb249c322127",
          "sibling": "0xea63c2cf7aaed65918936ba7b61df455d10abed099b690d5b14825ed27aa7e1a",
          "node_type": 9
        },
        {
          "value": "0x0000000000000000000000000000000000000000000000000000000000000000",
          "sibling": "0xa6a9b79363aac191b917d19aadd68390479fb9b83a481186e30beecf2c338812",
          "node_type": 8
        }
      ],
      "pathPart": "0x5"
    }
  ],
  "accountUpdate": [
    null,
    null
  ],
  "statePath": [
    null,
    null
  ],
  "commonStateRoot": "0x0000000000000000000000000000000000000000000000000000000000000000"
}
"#

theorem file_empty_account_type_2 : SameFile text_empty_account_type_2 empty_account_type_2 :=
  sameFile_of 5 5 0 0 _ _ (by decide +kernel) (by decide +kernel)

/-- /repo/src/traces/empty_account_type_1_balance_update.json, lines 1-83. -/
def text_empty_account_type_1_balance_update : Text := utf8% r#"{
  "address": "0x0000000000000000000000000000000000000000",
  "accountKey": "0x228442949e7ba388bf9c08ec9374c72a579a39d2a1bf453d87dae5368c5f3c1d",
  "accountPath": [
    {
      "root": "0xb3e9ff02c109b1d6aefa774523aaf5bef1207226e85a3726ecb505227ad1e621",
      "leaf": {
        "value": "0xd5183cce27ff45da94689d72d862770b5d6ff7315de77ef74d4e4318ac14ea11",
        "sibling": "0x12c81213be899bb64430611a4aa90214650855786bbec94bc0aea8780cf7fb1f",
        "node_type": 4
      },
      "path": [
        {
          "value": "0xa66d39d51412f50d7df0c6388c765c74b023a3e5d9eba9cbc80b6ef17f76ab1e",
          "sibling": "0x4c132495916e6529f791ad1d6977c5b9cf8720a58a7f196ea6fae35dffd80c15",
          "node_type": 9
        },
        {
          "value": "0x03703ecd3a382e78f6dd10259d232f45e22b592e2c91c091f3333ba8fc8ddb0a",
          "sibling": "0x0893ab6eb7dfbe3908cf199964e5a8eaa42673fee2dc4cdfdff46a037e100a08",
          "node_type": 9
        },
        {
          "value": "0x936f5938a27c18791e4ed02b0a1ac88b3e09f4f8c3a84f1a9a75fa8f516ef902",
          "sibling": "0xd9c820802763f8140cd3557566054ddbddacb4433830a7bb0e30c1db08dfa914",
          "node_type": 6
        }
      ],
      "pathPart": "0x2"
    },
    {
      "root": "0x2d38fa2f00a562151220ff34ed775c691317d7d5fec1c6be447faa300ecd4004",
      "leaf": {
        "value": "0xd40db0ee83e5d59382ab7774bf76b2c0a2ed10883acebdb44e0b05d1d0f57e11",
        "sibling": "0x228442949e7ba388bf9c08ec9374c72a579a39d2a1bf453d87dae5368c5f3c1d",
        "node_type": 4
      },
      "path": [
        {
          "value": "0x29a4a36016f84ad2e2084cebee65859144e77b6f2bb08f568433dcd46801a727",
          "sibling": "0x4c132495916e6529f791ad1d6977c5b9cf8720a58a7f196ea6fae35dffd80c15",
          "node_type": 9
        },
        {
          "value": "0xd734c75c45b9fbe3aab7b3bcbe20967dd6568d33e611a6aaf0817cfa49646d19",
          "sibling": "0x0893ab6eb7dfbe3908cf199964e5a8eaa42673fee2dc4cdfdff46a037e100a08",
          "node_type": 9
        },
        {
          "value": "0xf5a63132857ec8fe95ccd1f08b1a8a6f3089088e529925cbc3f4448ba6aea225",
          "sibling": "0xd9c820802763f8140cd3557566054ddbddacb4433830a7bb0e30c1db08dfa914",
          "node_type": 8
        },
        {
          "value": "0x8af58c490690e30fae9c999638473b5e2a0e72a892e2a5603670663b419fd90c",
          "sibling": "0x0000000000000000000000000000000000000000000000000000000000000000",
          "node_type": 8
        },
        {
          "value": "0xbd652a8fd7bfe57630c2504e1b9fbe15da66f033274ee8f49b0dee77d447c504",
          "sibling": "0x936f5938a27c18791e4ed02b0a1ac88b3e09f4f8c3a84f1a9a75fa8f516ef902",
          "node_type": 6
        }
      ],
      "pathPart": "0x2"
    }
  ],
  "accountUpdate": [
    null,
    {
      "nonce": 0,
      "balance": "0xc8",
      "codeHash": "0x0000000000000000000000000000000000000000000000000000000000000000",
      "poseidonCodeHash": "0x0000000000000000000000000000000000000000000000000000000000000000",
      "codeSize": 0
    }
  ],
  "statePath": [
    null,
    null
  ],
  "commonStateRoot": "0x0000000000000000000000000000000000000000000000000000000000000000"
}
"#

theorem file_empty_account_type_1_balance_update : SameFile text_empty_account_type_1_balance_update empty_account_type_1_balance_update :=
  sameFile_of 2 2 0 0 _ _ (by decide +kernel) (by decide +kernel)

/-- /repo/src/traces/empty_account_type_1_nonce_update.json, lines 1-78. -/
def text_empty_account_type_1_nonce_update : Text := utf8% r#"{
  "address": "0x0b0b0b0b0b0b0b0b0b0b0b0b0b0b0b0b0b0b0b0b",
  "accountKey": "0xf732e39dd1c1d610d1e5ba97c55c156bf2e9b3c9f13d26f655ea18796bdda90f",
  "accountPath": [
    {
      "root": "0xb3e9ff02c109b1d6aefa774523aaf5bef1207226e85a3726ecb505227ad1e621",
      "leaf": {
        "value": "0xd5183cce27ff45da94689d72d862770b5d6ff7315de77ef74d4e4318ac14ea11",
        "sibling": "0xff2cc690b31f32da9f69ee898d38396be2b418bcd781e2f504c823a9e3b5990c",
        "node_type": 4
      },
      "path": [
        {
          "value": "0x4c132495916e6529f791ad1d6977c5b9cf8720a58a7f196ea6fae35dffd80c15",
          "sibling": "0xa66d39d51412f50d7df0c6388c765c74b023a3e5d9eba9cbc80b6ef17f76ab1e",
          "node_type": 9
        },
        {
          "value": "0xea63c2cf7aaed65918936ba7b61df455d10abed099b690d5b14825ed27aa7e1a",
          "sibling": "0xf485d05d32be22082faed55e8c38826fec4a8250f41ce4639d51fb249c322127",
          "node_type": 9
        },
        {
          "value": "0xebb8b01466f6764df4b8b2a3d180b849b9616c536c0a4b6f107e3b10a739761e",
          "sibling": "0x0f83a2e43aa2c5994001f58a94b99b65f39449455e291766d20feca59209cd08",
          "node_type": 6
        }
      ],
      "pathPart": "0x7"
    },
    {
      "root": "0x995ccb91b8d6c660027d0c7e2db4442d5942f13c43dfb51251e2f3e113b53503",
      "leaf": {
        "value": "0xf42020e24a87c5f7f00d7bf90ae137bb7cb8d23611627ce0f46e74470af77207",
        "sibling": "0xf732e39dd1c1d610d1e5ba97c55c156bf2e9b3c9f13d26f655ea18796bdda90f",
        "node_type": 4
      },
      "path": [
        {
          "value": "0x5b6939dabed655dee192be83c56f2633365766e642610f155488e2549c0b5303",
          "sibling": "0xa66d39d51412f50d7df0c6388c765c74b023a3e5d9eba9cbc80b6ef17f76ab1e",
          "node_type": 9
        },
        {
          "value": "0x00f167b0fc5c5af2b84e520ccdbe33952ab69e266356c114bba458c067d3b21e",
          "sibling": "0xf485d05d32be22082faed55e8c38826fec4a8250f41ce4639d51fb249c322127",
          "node_type": 9
        },
        {
          "value": "0x50b84b89e48fa46c8b95265c085c7b828feb3b68c19a1de01548f1089e00da01",
          "sibling": "0x0f83a2e43aa2c5994001f58a94b99b65f39449455e291766d20feca59209cd08",
          "node_type": 7
        },
        {
          "value": "0x24ea2477f449b36f9059936a59394e3bc7df2724cf6934ee35aaa791722b4b30",
          "sibling": "0xebb8b01466f6764df4b8b2a3d180b849b9616c536c0a4b6f107e3b10a739761e",
          "node_type": 6
        }
      ],
      "pathPart": "0x7"
    }
  ],
  "accountUpdate": [
    null,
    {
      "nonce": 200,
      "balance": "0x0",
      "codeHash": "0x0000000000000000000000000000000000000000000000000000000000000000",
      "poseidonCodeHash": "0x0000000000000000000000000000000000000000000000000000000000000000",
      "codeSize": 0
    }
  ],
  "statePath": [
    null,
    null
  ],
  "commonStateRoot": "0x0000000000000000000000000000000000000000000000000000000000000000"
}
"#

theorem file_empty_account_type_1_nonce_update : SameFile text_empty_account_type_1_nonce_update empty_account_type_1_nonce_update :=
  sameFile_of 7 7 0 0 _ _ (by decide +kernel) (by decide +kernel)

/-- /repo/src/traces/empty_account_type_2_balance_update.json, lines 1-68. -/
def text_empty_account_type_2_balance_update : Text := utf8% r#"{
  "address": "0x1414141414141414141414141414141414141414",
  "accountKey": "0x0528ff2808cf785c378aaf2765ac1000c537dbd43cb0022b2387f200ba160324",
  "accountPath": [
    {
      "root": "0xb3e9ff02c109b1d6aefa774523aaf5bef1207226e85a3726ecb505227ad1e621",
      "path": [
        {
          "value": "0x4c132495916e6529f791ad1d6977c5b9cf8720a58a7f196ea6fae35dffd80c15",
          "sibling": "0xa66d39d51412f50d7df0c6388c765c74b023a3e5d9eba9cbc80b6ef17f76ab1e",
          "node_type": 9
        },
        {
          "value": "0xf485d05d32be22082faed55e8c38826fec4a8250f41ce4639d51fb249c322127",
          "sibling": "0xea63c2cf7aaed65918936ba7b61df455d10abed099b690d5b14825ed27aa7e1a",
          "node_type": 9
        },
        {
          "value": "0x0000000000000000000000000000000000000000000000000000000000000000",
          "sibling": "0xa6a9b79363aac191b917d19aadd68390479fb9b83a481186e30beecf2c338812",
          "node_type": 8
        }
      ],
      "pathPart": "0x5"
    },
    {
      "root": "0x5a2414efcc32e8be0e1d26a4a3f46ee4ff8211c44220dbdd64960bb0fce5b722",
      "leaf": {
        "value": "0x0d4de0a5d4665c3881fec254a7f1cb43ab19f029249081648edc6bfe3f16a610",
        "sibling": "0x0528ff2808cf785c378aaf2765ac1000c537dbd43cb0022b2387f200ba160324",
        "node_type": 4
      },
      "path": [
        {
          "value": "0x95a80bcaea9bb560c48f62956dd193398bd4cbad882e8068cf422894fee6c92a",
          "sibling": "0xa66d39d51412f50d7df0c6388c765c74b023a3e5d9eba9cbc80b6ef17f76ab1e",
          "node_type": 9
        },
        {
          "value": "0x66f056352b83824dcfa7b41df3d23aa80b36014068572a2e57273357a0f0c22d",
          "sibling": "0xea63c2cf7aaed65918936ba7b61df455d10abed099b690d5b14825ed27aa7e1a",
          "node_type": 9
        },
        {
          "value": "0x8e80d651ba2bec43ee4c9d929740149affbe4327f21d8c7c7944bc88430b271c",
          "sibling": "0xa6a9b79363aac191b917d19aadd68390479fb9b83a481186e30beecf2c338812",
          "node_type": 8
        }
      ],
      "pathPart": "0x5"
    }
  ],
  "accountUpdate": [
    null,
    {
      "nonce": 0,
      "balance": "0x1caac51a83",
      "codeHash": "0x0000000000000000000000000000000000000000000000000000000000000000",
      "poseidonCodeHash": "0x0000000000000000000000000000000000000000000000000000000000000000",
      "codeSize": 0
    }
  ],
  "statePath": [
    null,
    null
  ],
  "commonStateRoot": "0x0000000000000000000000000000000000000000000000000000000000000000"
}
"#

theorem file_empty_account_type_2_balance_update : SameFile text_empty_account_type_2_balance_update empty_account_type_2_balance_update :=
  sameFile_of 5 5 0 0 _ _ (by decide +kernel) (by decide +kernel)

/-- /repo/src/traces/empty_account_type_2_nonce_update.json, lines 1-68. -/
def text_empty_account_type_2_nonce_update : Text := utf8% r#"{
  "address": "0x1414141414141414141414141414141414141414",
  "accountKey": "0x0528ff2808cf785c378aaf2765ac1000c537dbd43cb0022b2387f200ba160324",
  "accountPath": [
    {
      "root": "0xb3e9ff02c109b1d6aefa774523aaf5bef1207226e85a3726ecb505227ad1e621",
      "path": [
        {
          "value": "0x4c132495916e6529f791ad1d6977c5b9cf8720a58a7f196ea6fae35dffd80c15",
          "sibling": "0xa66d39d51412f50d7df0c6388c765c74b023a3e5d9eba9cbc80b6ef17f76ab1e",
          "node_type": 9
        },
        {
          "value": "0xf485d05d32be22082faed55e8c38826fec4a8250f41ce4639d51fb249c322127",
          "sibling": "0xea63c2cf7aaed65918936ba7b61df455d10abed099b690d5b14825ed27aa7e1a",
          "node_type": 9
        },
        {
          "value": "0x0000000000000000000000000000000000000000000000000000000000000000",
          "sibling": "0xa6a9b79363aac191b917d19aadd68390479fb9b83a481186e30beecf2c338812",
          "node_type": 8
        }
      ],
      "pathPart": "0x5"
    },
    {
      "root": "0xd9f27a88ad2093314ec125c48ddd1178da1db83142335ecf4958f3f5a3678b23",
      "leaf": {
        "value": "0x65c44a49797f54ab3bf14e751b8c59c65fee50513b60467decd2defc3e424319",
        "sibling": "0x0528ff2808cf785c378aaf2765ac1000c537dbd43cb0022b2387f200ba160324",
        "node_type": 4
      },
      "path": [
        {
          "value": "0x184f988ad75b2e5bb8cfb6e3c2c157a2621d11a892db5a0a909370f4eaf42d16",
          "sibling": "0xa66d39d51412f50d7df0c6388c765c74b023a3e5d9eba9cbc80b6ef17f76ab1e",
          "node_type": 9
        },
        {
          "value": "0xbcead335ea114e6112030c0c12e1a59495163e8f20e72231f069d4b76921ec12",
          "sibling": "0xea63c2cf7aaed65918936ba7b61df455d10abed099b690d5b14825ed27aa7e1a",
          "node_type": 9
        },
        {
          "value": "0x17a80fbb505406ea3d7d84b86c84e09d13986e58799111b50ac5d1cfb438fa1b",
          "sibling": "0xa6a9b79363aac191b917d19aadd68390479fb9b83a481186e30beecf2c338812",
          "node_type": 8
        }
      ],
      "pathPart": "0x5"
    }
  ],
  "accountUpdate": [
    null,
    {
      "nonce": 123124128387,
      "balance": "0x0",
      "codeHash": "0x0000000000000000000000000000000000000000000000000000000000000000",
      "poseidonCodeHash": "0x0000000000000000000000000000000000000000000000000000000000000000",
      "codeSize": 0
    }
  ],
  "statePath": [
    null,
    null
  ],
  "commonStateRoot": "0x0000000000000000000000000000000000000000000000000000000000000000"
}
"#

theorem file_empty_account_type_2_nonce_update : SameFile text_empty_account_type_2_nonce_update empty_account_type_2_nonce_update :=
  sameFile_of 5 5 0 0 _ _ (by decide +kernel) (by decide +kernel)

/-- /repo/src/traces/existing_account_balance_update.json, lines 1-79. -/
def text_existing_account_balance_update : Text := utf8% r#"{
  "address": "0x0202020202020202020202020202020202020202",
  "accountKey": "0xff2cc690b31f32da9f69ee898d38396be2b418bcd781e2f504c823a9e3b5990c",
  "accountPath": [
    {
      "root": "0xb3e9ff02c109b1d6aefa774523aaf5bef1207226e85a3726ecb505227ad1e621",
      "leaf": {
        "value": "0xd5183cce27ff45da94689d72d862770b5d6ff7315de77ef74d4e4318ac14ea11",
        "sibling": "0xff2cc690b31f32da9f69ee898d38396be2b418bcd781e2f504c823a9e3b5990c",
        "node_type": 4
      },
      "path": [
        {
          "value": "0x4c132495916e6529f791ad1d6977c5b9cf8720a58a7f196ea6fae35dffd80c15",
          "sibling": "0xa66d39d51412f50d7df0c6388c765c74b023a3e5d9eba9cbc80b6ef17f76ab1e",
          "node_type": 9
        },
        {
          "value": "0xea63c2cf7aaed65918936ba7b61df455d10abed099b690d5b14825ed27aa7e1a",
          "sibling": "0xf485d05d32be22082faed55e8c38826fec4a8250f41ce4639d51fb249c322127",
          "node_type": 9
        },
        {
          "value": "0xebb8b01466f6764df4b8b2a3d180b849b9616c536c0a4b6f107e3b10a739761e",
          "sibling": "0x0f83a2e43aa2c5994001f58a94b99b65f39449455e291766d20feca59209cd08",
          "node_type": 6
        }
      ],
      "pathPart": "0x7"
    },
    {
      "root": "0xc5249c83fd415dfaefc8a571baf809928ee9cf3a83db725e67b5efab2c849e2a",
      "leaf": {
        "value": "0x7aaaf309a30602bd2cada44848a5345527cddb78d8ebcbf95bd03e56a9cec528",
        "sibling": "0xff2cc690b31f32da9f69ee898d38396be2b418bcd781e2f504c823a9e3b5990c",
        "node_type": 4
      },
      "path": [
        {
          "value": "0x3deb29f5a72c623e0562111611ded2c719fadb6710fe5aa8405f9b9c3c201b0c",
          "sibling": "0xa66d39d51412f50d7df0c6388c765c74b023a3e5d9eba9cbc80b6ef17f76ab1e",
          "node_type": 9
        },
        {
          "value": "0x8da46c9ad5d617b5758c054ac32064f074016de279fe6dc676c1216c5ebd792f",
          "sibling": "0xf485d05d32be22082faed55e8c38826fec4a8250f41ce4639d51fb249c322127",
          "node_type": 9
        },
        {
          "value": "0xc194e5ef0982a25bbcd4932093d59d9f775b68f5fc904c8120096edc877b4628",
          "sibling": "0x0f83a2e43aa2c5994001f58a94b99b65f39449455e291766d20feca59209cd08",
          "node_type": 6
        }
      ],
      "pathPart": "0x7"
    }
  ],
  "accountUpdate": [
    {
      "nonce": 0,
      "balance": "0x1",
      "codeHash": "0x0000000000000000000000000000000000000000000000000000000000000000",
      "poseidonCodeHash": "0x0000000000000000000000000000000000000000000000000000000000000000",
      "codeSize": 0
    },
    {
      "nonce": 0,
      "balance": "0x12ca34",
      "codeHash": "0x0000000000000000000000000000000000000000000000000000000000000000",
      "poseidonCodeHash": "0x0000000000000000000000000000000000000000000000000000000000000000",
      "codeSize": 0
    }
  ],
  "statePath": [
    null,
    null
  ],
  "commonStateRoot": "0x0000000000000000000000000000000000000000000000000000000000000000"
}
"#

theorem file_existing_account_balance_update : SameFile text_existing_account_balance_update existing_account_balance_update :=
  sameFile_of 7 7 0 0 _ _ (by decide +kernel) (by decide +kernel)

/-- /repo/src/traces/existing_account_code_size_update.json, lines 1-99. -/
def text_existing_account_code_size_update : Text := utf8% r#"{
  "address": "0x0404040404040404040404040404040404040404",
  "accountKey": "0xbc47183529351c0a1de1339bd11c9fcbe706bebe4cfeb512b5eca9b808773c22",
  "accountPath": [
    {
      "root": "0xb3e9ff02c109b1d6aefa774523aaf5bef1207226e85a3726ecb505227ad1e621",
      "leaf": {
        "value": "0xd5183cce27ff45da94689d72d862770b5d6ff7315de77ef74d4e4318ac14ea11",
        "sibling": "0xbc47183529351c0a1de1339bd11c9fcbe706bebe4cfeb512b5eca9b808773c22",
        "node_type": 4
      },
      "path": [
        {
          "value": "0xa66d39d51412f50d7df0c6388c765c74b023a3e5d9eba9cbc80b6ef17f76ab1e",
          "sibling": "0x4c132495916e6529f791ad1d6977c5b9cf8720a58a7f196ea6fae35dffd80c15",
          "node_type": 9
        },
        {
          "value": "0x0893ab6eb7dfbe3908cf199964e5a8eaa42673fee2dc4cdfdff46a037e100a08",
          "sibling": "0x03703ecd3a382e78f6dd10259d232f45e22b592e2c91c091f3333ba8fc8ddb0a",
          "node_type": 9
        },
        {
          "value": "0x390dad90d28a127e8aba1a8a2872e68ac9acadfbf28476766e5fed56c347630f",
          "sibling": "0xd93a8533b78805da6242290964713fcf98fe162788121fb006d6e32154a0ac03",
          "node_type": 7
        },
        {
          "value": "0xa06587340be88ba91a07068e100cf3ac1c383de6f9e6cc023e1a550bc307830d",
          "sibling": "0x0000000000000000000000000000000000000000000000000000000000000000",
          "node_type": 7
        },
        {
          "value": "0x0dbed2de655bdf31c59616230ccbdacf461df536443ebadaf86f8a63674eab0a",
          "sibling": "0x093476b5531dce3519bf3ebdb7c1762bda68f633fcb2e00a6cd194d46089ac10",
          "node_type": 6
        }
      ],
      "pathPart": "0x1c"
    },
    {
      "root": "0x59970f087910aad2307a0cceff2c361e1f428d51b5858feb07c79925e3359309",
      "leaf": {
        "value": "0xec307bc289a81964a2f2d79a685ba399033aa5f82961d56193495ef23328d304",
        "sibling": "0xbc47183529351c0a1de1339bd11c9fcbe706bebe4cfeb512b5eca9b808773c22",
        "node_type": 4
      },
      "path": [
        {
          "value": "0xb6d1d64697db79093624bbc8f8f45b87b1fe4184384da5abefea6565336c442a",
          "sibling": "0x4c132495916e6529f791ad1d6977c5b9cf8720a58a7f196ea6fae35dffd80c15",
          "node_type": 9
        },
        {
          "value": "0xd3aecf7a427b062cf302a546baa9931fe2397ba1cf5ca11428731fd07342c42c",
          "sibling": "0x03703ecd3a382e78f6dd10259d232f45e22b592e2c91c091f3333ba8fc8ddb0a",
          "node_type": 9
        },
        {
          "value": "0x28692d96e940426fe7915ee2361288e6d9b07d773aa481b9f109fbf869279828",
          "sibling": "0xd93a8533b78805da6242290964713fcf98fe162788121fb006d6e32154a0ac03",
          "node_type": 7
        },
        {
          "value": "0x52c04e22a6f7e8dac86166c6e2cb9177e5b0f45961ff441cde732bf1bf63f022",
          "sibling": "0x0000000000000000000000000000000000000000000000000000000000000000",
          "node_type": 7
        },
        {
          "value": "0x57475c61be34bcba6a5a4e68674b5394dd679c9f398b7706b0bb9ee42e39bf10",
          "sibling": "0x093476b5531dce3519bf3ebdb7c1762bda68f633fcb2e00a6cd194d46089ac10",
          "node_type": 6
        }
      ],
      "pathPart": "0x1c"
    }
  ],
  "accountUpdate": [
    {
      "nonce": 0,
      "balance": "0x1",
      "codeHash": "0x0000000000000000000000000000000000000000000000000000000000000000",
      "poseidonCodeHash": "0x0000000000000000000000000000000000000000000000000000000000000000",
      "codeSize": 0
    },
    {
      "nonce": 0,
      "balance": "0x1",
      "codeHash": "0x0000000000000000000000000000000000000000000000000000000000000000",
      "poseidonCodeHash": "0x0000000000000000000000000000000000000000000000000000000000000000",
      "codeSize": 2342114
    }
  ],
  "statePath": [
    null,
    null
  ],
  "commonStateRoot": "0x0000000000000000000000000000000000000000000000000000000000000000"
}
"#

theorem file_existing_account_code_size_update : SameFile text_existing_account_code_size_update existing_account_code_size_update :=
  sameFile_of 28 28 0 0 _ _ (by decide +kernel) (by decide +kernel)

/-- /repo/src/traces/existing_account_keccak_codehash_update.json, lines 1-99. -/
def text_existing_account_keccak_codehash_update : Text := utf8% r#"{
  "address": "0x0808080808080808080808080808080808080808",
  "accountKey": "0x2cb1dd51e4f0830f4eb3e0af2736d327ccc7e7b9ddf6e5846edaf7b2c3fc562b",
  "accountPath": [
    {
      "root": "0xb3e9ff02c109b1d6aefa774523aaf5bef1207226e85a3726ecb505227ad1e621",
      "leaf": {
        "value": "0xd5183cce27ff45da94689d72d862770b5d6ff7315de77ef74d4e4318ac14ea11",
        "sibling": "0x2cb1dd51e4f0830f4eb3e0af2736d327ccc7e7b9ddf6e5846edaf7b2c3fc562b",
        "node_type": 4
      },
      "path": [
        {
          "value": "0xa66d39d51412f50d7df0c6388c765c74b023a3e5d9eba9cbc80b6ef17f76ab1e",
          "sibling": "0x4c132495916e6529f791ad1d6977c5b9cf8720a58a7f196ea6fae35dffd80c15",
          "node_type": 9
        },
        {
          "value": "0x0893ab6eb7dfbe3908cf199964e5a8eaa42673fee2dc4cdfdff46a037e100a08",
          "sibling": "0x03703ecd3a382e78f6dd10259d232f45e22b592e2c91c091f3333ba8fc8ddb0a",
          "node_type": 9
        },
        {
          "value": "0x390dad90d28a127e8aba1a8a2872e68ac9acadfbf28476766e5fed56c347630f",
          "sibling": "0xd93a8533b78805da6242290964713fcf98fe162788121fb006d6e32154a0ac03",
          "node_type": 7
        },
        {
          "value": "0xa06587340be88ba91a07068e100cf3ac1c383de6f9e6cc023e1a550bc307830d",
          "sibling": "0x0000000000000000000000000000000000000000000000000000000000000000",
          "node_type": 7
        },
        {
          "value": "0x093476b5531dce3519bf3ebdb7c1762bda68f633fcb2e00a6cd194d46089ac10",
          "sibling": "0x0dbed2de655bdf31c59616230ccbdacf461df536443ebadaf86f8a63674eab0a",
          "node_type": 6
        }
      ],
      "pathPart": "0xc"
    },
    {
      "root": "0x29e91efebc15b63fa13956706543e5cc443a7a54eb3b489d9845657006afcc25",
      "leaf": {
        "value": "0x48eb1308ad440c0f152d9c303487acee533938575d0bfaad7f19665710945524",
        "sibling": "0x2cb1dd51e4f0830f4eb3e0af2736d327ccc7e7b9ddf6e5846edaf7b2c3fc562b",
        "node_type": 4
      },
      "path": [
        {
          "value": "0x69b44562239ca7306beb63b85f11b12deff1c7e088036549060fbf71bc53f103",
          "sibling": "0x4c132495916e6529f791ad1d6977c5b9cf8720a58a7f196ea6fae35dffd80c15",
          "node_type": 9
        },
        {
          "value": "0x3a95af4f7bcce738f70687b9151ac7c65e6d3a41de3a5d93c5213147006d7617",
          "sibling": "0x03703ecd3a382e78f6dd10259d232f45e22b592e2c91c091f3333ba8fc8ddb0a",
          "node_type": 9
        },
        {
          "value": "0x8835cfdc1a294c6920b01f2dc221ee51108826720ef974783af3002c352d7a08",
          "sibling": "0xd93a8533b78805da6242290964713fcf98fe162788121fb006d6e32154a0ac03",
          "node_type": 7
        },
        {
          "value": "0x33ba3a0d40f242c9d2a6886f291338ef264780b18a4cbf4901ac92e703489f2a",
          "sibling": "0x0000000000000000000000000000000000000000000000000000000000000000",
          "node_type": 7
        },
        {
          "value": "0xd65eeb1d659d450396ecc402bbd099d3b43b6d294a4e390d5edd0cf874029517",
          "sibling": "0x0dbed2de655bdf31c59616230ccbdacf461df536443ebadaf86f8a63674eab0a",
          "node_type": 6
        }
      ],
      "pathPart": "0xc"
    }
  ],
  "accountUpdate": [
    {
      "nonce": 0,
      "balance": "0x1",
      "codeHash": "0x0000000000000000000000000000000000000000000000000000000000000000",
      "poseidonCodeHash": "0x0000000000000000000000000000000000000000000000000000000000000000",
      "codeSize": 0
    },
    {
      "nonce": 0,
      "balance": "0x1",
      "codeHash": "0x000000000000022b00000000000001bcffffffffffffffff0000000000000457",
      "poseidonCodeHash": "0x0000000000000000000000000000000000000000000000000000000000000000",
      "codeSize": 0
    }
  ],
  "statePath": [
    null,
    null
  ],
  "commonStateRoot": "0x0000000000000000000000000000000000000000000000000000000000000000"
}
"#

theorem file_existing_account_keccak_codehash_update : SameFile text_existing_account_keccak_codehash_update existing_account_keccak_codehash_update :=
  sameFile_of 12 12 0 0 _ _ (by decide +kernel) (by decide +kernel)

/-- /repo/src/traces/existing_account_nonce_update.json, lines 1-99. -/
def text_existing_account_nonce_update : Text := utf8% r#"{
  "address": "0x0404040404040404040404040404040404040404",
  "accountKey": "0xbc47183529351c0a1de1339bd11c9fcbe706bebe4cfeb512b5eca9b808773c22",
  "accountPath": [
    {
      "root": "0xb3e9ff02c109b1d6aefa774523aaf5bef1207226e85a3726ecb505227ad1e621",
      "leaf": {
        "value": "0xd5183cce27ff45da94689d72d862770b5d6ff7315de77ef74d4e4318ac14ea11",
        "sibling": "0xbc47183529351c0a1de1339bd11c9fcbe706bebe4cfeb512b5eca9b808773c22",
        "node_type": 4
      },
      "path": [
        {
          "value": "0xa66d39d51412f50d7df0c6388c765c74b023a3e5d9eba9cbc80b6ef17f76ab1e",
          "sibling": "0x4c132495916e6529f791ad1d6977c5b9cf8720a58a7f196ea6fae35dffd80c15",
          "node_type": 9
        },
        {
          "value": "0x0893ab6eb7dfbe3908cf199964e5a8eaa42673fee2dc4cdfdff46a037e100a08",
          "sibling": "0x03703ecd3a382e78f6dd10259d232f45e22b592e2c91c091f3333ba8fc8ddb0a",
          "node_type": 9
        },
        {
          "value": "0x390dad90d28a127e8aba1a8a2872e68ac9acadfbf28476766e5fed56c347630f",
          "sibling": "0xd93a8533b78805da6242290964713fcf98fe162788121fb006d6e32154a0ac03",
          "node_type": 7
        },
        {
          "value": "0xa06587340be88ba91a07068e100cf3ac1c383de6f9e6cc023e1a550bc307830d",
          "sibling": "0x0000000000000000000000000000000000000000000000000000000000000000",
          "node_type": 7
        },
        {
          "value": "0x0dbed2de655bdf31c59616230ccbdacf461df536443ebadaf86f8a63674eab0a",
          "sibling": "0x093476b5531dce3519bf3ebdb7c1762bda68f633fcb2e00a6cd194d46089ac10",
          "node_type": 6
        }
      ],
      "pathPart": "0x1c"
    },
    {
      "root": "0xd853b927733f79dff7da6cd8a8ca01438816ec82d4946a8dcb5e35381ff58e0f",
      "leaf": {
        "value": "0x02d35c0011d4d648ad35580cdc6cc18beb8b4a6997cda5a113973270c5786703",
        "sibling": "0xbc47183529351c0a1de1339bd11c9fcbe706bebe4cfeb512b5eca9b808773c22",
        "node_type": 4
      },
      "path": [
        {
          "value": "0x5e4316d009eee2ba1658d79287e4d488f5a2c10bc4305baeb84a80f6ebbfed26",
          "sibling": "0x4c132495916e6529f791ad1d6977c5b9cf8720a58a7f196ea6fae35dffd80c15",
          "node_type": 9
        },
        {
          "value": "0xb19bdb62174b1da0ea350e2f16a1dbe2e565f20773a3bf627d1963e2a4ac3b0b",
          "sibling": "0x03703ecd3a382e78f6dd10259d232f45e22b592e2c91c091f3333ba8fc8ddb0a",
          "node_type": 9
        },
        {
          "value": "0x412ef57db973ff43688939fcc76a85a8d48b03e660f87e983073f1055ea1d62b",
          "sibling": "0xd93a8533b78805da6242290964713fcf98fe162788121fb006d6e32154a0ac03",
          "node_type": 7
        },
        {
          "value": "0xa7441f0351f136dd9081d1692652bd06f2e754f658ecb21c58b5113101fd9105",
          "sibling": "0x0000000000000000000000000000000000000000000000000000000000000000",
          "node_type": 7
        },
        {
          "value": "0xfee2f1b4ab0139a1443e94ea71e260146a7a09e3f003a6cbe2f7197b1ecf430f",
          "sibling": "0x093476b5531dce3519bf3ebdb7c1762bda68f633fcb2e00a6cd194d46089ac10",
          "node_type": 6
        }
      ],
      "pathPart": "0x1c"
    }
  ],
  "accountUpdate": [
    {
      "nonce": 0,
      "balance": "0x1",
      "codeHash": "0x0000000000000000000000000000000000000000000000000000000000000000",
      "poseidonCodeHash": "0x0000000000000000000000000000000000000000000000000000000000000000",
      "codeSize": 0
    },
    {
      "nonce": 1,
      "balance": "0x1",
      "codeHash": "0x0000000000000000000000000000000000000000000000000000000000000000",
      "poseidonCodeHash": "0x0000000000000000000000000000000000000000000000000000000000000000",
      "codeSize": 0
    }
  ],
  "statePath": [
    null,
    null
  ],
  "commonStateRoot": "0x0000000000000000000000000000000000000000000000000000000000000000"
}
"#

theorem file_existing_account_nonce_update : SameFile text_existing_account_nonce_update existing_account_nonce_update :=
  sameFile_of 28 28 0 0 _ _ (by decide +kernel) (by decide +kernel)

/-- /repo/src/traces/existing_account_poseidon_codehash_update.json, lines 1-99. -/
def text_existing_account_poseidon_codehash_update : Text := utf8% r#"{
  "address": "0x0404040404040404040404040404040404040404",
  "accountKey": "0xbc47183529351c0a1de1339bd11c9fcbe706bebe4cfeb512b5eca9b808773c22",
  "accountPath": [
    {
      "root": "0xb3e9ff02c109b1d6aefa774523aaf5bef1207226e85a3726ecb505227ad1e621",
      "leaf": {
        "value": "0xd5183cce27ff45da94689d72d862770b5d6ff7315de77ef74d4e4318ac14ea11",
        "sibling": "0xbc47183529351c0a1de1339bd11c9fcbe706bebe4cfeb512b5eca9b808773c22",
        "node_type": 4
      },
      "path": [
        {
          "value": "0xa66d39d51412f50d7df0c6388c765c74b023a3e5d9eba9cbc80b6ef17f76ab1e",
          "sibling": "0x4c132495916e6529f791ad1d6977c5b9cf8720a58a7f196ea6fae35dffd80c15",
          "node_type": 9
        },
        {
          "value": "0x0893ab6eb7dfbe3908cf199964e5a8eaa42673fee2dc4cdfdff46a037e100a08",
          "sibling": "0x03703ecd3a382e78f6dd10259d232f45e22b592e2c91c091f3333ba8fc8ddb0a",
          "node_type": 9
        },
        {
          "value": "0x390dad90d28a127e8aba1a8a2872e68ac9acadfbf28476766e5fed56c347630f",
          "sibling": "0xd93a8533b78805da6242290964713fcf98fe162788121fb006d6e32154a0ac03",
          "node_type": 7
        },
        {
          "value": "0xa06587340be88ba91a07068e100cf3ac1c383de6f9e6cc023e1a550bc307830d",
          "sibling": "0x0000000000000000000000000000000000000000000000000000000000000000",
          "node_type": 7
        },
        {
          "value": "0x0dbed2de655bdf31c59616230ccbdacf461df536443ebadaf86f8a63674eab0a",
          "sibling": "0x093476b5531dce3519bf3ebdb7c1762bda68f633fcb2e00a6cd194d46089ac10",
          "node_type": 6
        }
      ],
      "pathPart": "0x1c"
    },
    {
      "root": "0x9837669f15bfc8788c34b17f6dae98b06cd6c66c9c461972a2a7d23ff174a32d",
      "leaf": {
        "value": "0x5b49cbbb725f686b759f6308ee12d00f79a9ed37ecdb98583993e078b6ace81f",
        "sibling": "0xbc47183529351c0a1de1339bd11c9fcbe706bebe4cfeb512b5eca9b808773c22",
        "node_type": 4
      },
      "path": [
        {
          "value": "0xa2ccb54215fa910bb941a125e5d46572d673a70fb7527c2b025a4c28625db20d",
          "sibling": "0x4c132495916e6529f791ad1d6977c5b9cf8720a58a7f196ea6fae35dffd80c15",
          "node_type": 9
        },
        {
          "value": "0xb5607215723498d84c61ab2c2d96c2f36964d4b9c8024e06ead9c1224c830c13",
          "sibling": "0x03703ecd3a382e78f6dd10259d232f45e22b592e2c91c091f3333ba8fc8ddb0a",
          "node_type": 9
        },
        {
          "value": "0xd9d2a893b4f46b0c585d5aac5922e5d39f0280cd38906c117204aeda12fc3500",
          "sibling": "0xd93a8533b78805da6242290964713fcf98fe162788121fb006d6e32154a0ac03",
          "node_type": 7
        },
        {
          "value": "0x2c26a037cd5bfe48555e868cb30c380e4e1ac61a92789c9e1623f6d1b798571e",
          "sibling": "0x0000000000000000000000000000000000000000000000000000000000000000",
          "node_type": 7
        },
        {
          "value": "0xc7f3df61b5713c3de0e278bdc412da2b9b34f6da9f182ff8694305178ae30b2b",
          "sibling": "0x093476b5531dce3519bf3ebdb7c1762bda68f633fcb2e00a6cd194d46089ac10",
          "node_type": 6
        }
      ],
      "pathPart": "0x1c"
    }
  ],
  "accountUpdate": [
    {
      "nonce": 0,
      "balance": "0x1",
      "codeHash": "0x0000000000000000000000000000000000000000000000000000000000000000",
      "poseidonCodeHash": "0x0000000000000000000000000000000000000000000000000000000000000000",
      "codeSize": 0
    },
    {
      "nonce": 0,
      "balance": "0x1",
      "codeHash": "0x0000000000000000000000000000000000000000000000000000000000000000",
      "poseidonCodeHash": "0x0000000000000926ffffffffffffffffffffffffffffffffffffffffffffffff",
      "codeSize": 0
    }
  ],
  "statePath": [
    null,
    null
  ],
  "commonStateRoot": "0x0000000000000000000000000000000000000000000000000000000000000000"
}
"#

theorem file_existing_account_poseidon_codehash_update : SameFile text_existing_account_poseidon_codehash_update existing_account_poseidon_codehash_update :=
  sameFile_of 28 28 0 0 _ _ (by decide +kernel) (by decide +kernel)

/-- /repo/src/traces/createNameRegistratorPerTxsNotEnoughGas_d0_g0_v0.json, lines 1-463. -/
def text_createName : Text := utf8% r#"[
  [
    "AccountDoesNotExist",
    {
      "address": "0x2adc25665018aa1fe0e6bc666dac8fc2697ff9ba",
      "accountKey": "0x0c2b7a2233683ca3fdf4cb670d06fffdeb11ad0592b1e7cad87e3e3cc7bcf805",
      "accountPath": [
        {
          "root": "0x252e31fcfd8f15f35cf1db8a250dc2f9920414047047f8263f509b2ec9d7dd03",
          "leaf": {
            "value": "0x0fd348b83e56090b7525967291ba6ae3c06f43cb926a41018b279747d702d329",
            "sibling": "0x44ef89daadd3a70d440f9af05579a1f73d2d9407710c524f21903ee56f3f3f1a",
            "node_type": 4
          },
          "pathPart": "0x0"
        },
        {
          "root": "0x252e31fcfd8f15f35cf1db8a250dc2f9920414047047f8263f509b2ec9d7dd03",
          "leaf": {
            "value": "0x0fd348b83e56090b7525967291ba6ae3c06f43cb926a41018b279747d702d329",
            "sibling": "0x44ef89daadd3a70d440f9af05579a1f73d2d9407710c524f21903ee56f3f3f1a",
            "node_type": 4
          },
          "pathPart": "0x0"
        }
      ],
      "accountUpdate": [
        null,
        null
      ],
      "statePath": [
        null,
        null
      ],
      "commonStateRoot": "0x0000000000000000000000000000000000000000000000000000000000000000"
    }
  ],
  [
    "NonceChanged",
    {
      "address": "0x6295ee1b4f6dd65047762f924ecd367c17eabf8f",
      "accountKey": "0x293ccdc4280a75784fbdf8c7ae69b76e0852a88b140a7f330f49783d1347f626",
      "accountPath": [
        {
          "root": "0x252e31fcfd8f15f35cf1db8a250dc2f9920414047047f8263f509b2ec9d7dd03",
          "leaf": {
            "value": "0x0fd348b83e56090b7525967291ba6ae3c06f43cb926a41018b279747d702d329",
            "sibling": "0x44ef89daadd3a70d440f9af05579a1f73d2d9407710c524f21903ee56f3f3f1a",
            "node_type": 4
          },
          "pathPart": "0x0"
        },
        {
          "root": "0x252e31fcfd8f15f35cf1db8a250dc2f9920414047047f8263f509b2ec9d7dd03",
          "leaf": {
            "value": "0x0fd348b83e56090b7525967291ba6ae3c06f43cb926a41018b279747d702d329",
            "sibling": "0x44ef89daadd3a70d440f9af05579a1f73d2d9407710c524f21903ee56f3f3f1a",
            "node_type": 4
          },
          "pathPart": "0x0"
        }
      ],
      "accountUpdate": [
        null,
        null
      ],
      "statePath": [
        null,
        null
      ],
      "commonStateRoot": "0x0000000000000000000000000000000000000000000000000000000000000000"
    }
  ],
  [
    "BalanceChanged",
    {
      "address": "0x6295ee1b4f6dd65047762f924ecd367c17eabf8f",
      "accountKey": "0x293ccdc4280a75784fbdf8c7ae69b76e0852a88b140a7f330f49783d1347f626",
      "accountPath": [
        {
          "root": "0x252e31fcfd8f15f35cf1db8a250dc2f9920414047047f8263f509b2ec9d7dd03",
          "leaf": {
            "value": "0x0fd348b83e56090b7525967291ba6ae3c06f43cb926a41018b279747d702d329",
            "sibling": "0x44ef89daadd3a70d440f9af05579a1f73d2d9407710c524f21903ee56f3f3f1a",
            "node_type": 4
          },
          "pathPart": "0x0"
        },
        {
          "root": "0x252e31fcfd8f15f35cf1db8a250dc2f9920414047047f8263f509b2ec9d7dd03",
          "leaf": {
            "value": "0x0fd348b83e56090b7525967291ba6ae3c06f43cb926a41018b279747d702d329",
            "sibling": "0x44ef89daadd3a70d440f9af05579a1f73d2d9407710c524f21903ee56f3f3f1a",
            "node_type": 4
          },
          "pathPart": "0x0"
        }
      ],
      "accountUpdate": [
        null,
        null
      ],
      "statePath": [
        null,
        null
      ],
      "commonStateRoot": "0x0000000000000000000000000000000000000000000000000000000000000000"
    }
  ],
  [
    "CodeHashExists",
    {
      "address": "0x6295ee1b4f6dd65047762f924ecd367c17eabf8f",
      "accountKey": "0x293ccdc4280a75784fbdf8c7ae69b76e0852a88b140a7f330f49783d1347f626",
      "accountPath": [
        {
          "root": "0x252e31fcfd8f15f35cf1db8a250dc2f9920414047047f8263f509b2ec9d7dd03",
          "leaf": {
            "value": "0x0fd348b83e56090b7525967291ba6ae3c06f43cb926a41018b279747d702d329",
            "sibling": "0x44ef89daadd3a70d440f9af05579a1f73d2d9407710c524f21903ee56f3f3f1a",
            "node_type": 4
          },
          "pathPart": "0x0"
        },
        {
          "root": "0x252e31fcfd8f15f35cf1db8a250dc2f9920414047047f8263f509b2ec9d7dd03",
          "leaf": {
            "value": "0x0fd348b83e56090b7525967291ba6ae3c06f43cb926a41018b279747d702d329",
            "sibling": "0x44ef89daadd3a70d440f9af05579a1f73d2d9407710c524f21903ee56f3f3f1a",
            "node_type": 4
          },
          "pathPart": "0x0"
        }
      ],
      "accountUpdate": [
        null,
        null
      ],
      "statePath": [
        null,
        null
      ],
      "commonStateRoot": "0x0000000000000000000000000000000000000000000000000000000000000000"
    }
  ],
  [
    "AccountDoesNotExist",
    {
      "address": "0x6295ee1b4f6dd65047762f924ecd367c17eabf8f",
      "accountKey": "0x293ccdc4280a75784fbdf8c7ae69b76e0852a88b140a7f330f49783d1347f626",
      "accountPath": [
        {
          "root": "0x252e31fcfd8f15f35cf1db8a250dc2f9920414047047f8263f509b2ec9d7dd03",
          "leaf": {
            "value": "0x0fd348b83e56090b7525967291ba6ae3c06f43cb926a41018b279747d702d329",
            "sibling": "0x44ef89daadd3a70d440f9af05579a1f73d2d9407710c524f21903ee56f3f3f1a",
            "node_type": 4
          },
          "pathPart": "0x0"
        },
        {
          "root": "0x252e31fcfd8f15f35cf1db8a250dc2f9920414047047f8263f509b2ec9d7dd03",
          "leaf": {
            "value": "0x0fd348b83e56090b7525967291ba6ae3c06f43cb926a41018b279747d702d329",
            "sibling": "0x44ef89daadd3a70d440f9af05579a1f73d2d9407710c524f21903ee56f3f3f1a",
            "node_type": 4
          },
          "pathPart": "0x0"
        }
      ],
      "accountUpdate": [
        null,
        null
      ],
      "statePath": [
        null,
        null
      ],
      "commonStateRoot": "0x0000000000000000000000000000000000000000000000000000000000000000"
    }
  ],
  [
    "NonceChanged",
    {
      "address": "0xa94f5374fce5edbc8e2a8697c15331677e6ebf0b",
      "accountKey": "0x44ef89daadd3a70d440f9af05579a1f73d2d9407710c524f21903ee56f3f3f1a",
      "accountPath": [
        {
          "root": "0x252e31fcfd8f15f35cf1db8a250dc2f9920414047047f8263f509b2ec9d7dd03",
          "leaf": {
            "value": "0x0fd348b83e56090b7525967291ba6ae3c06f43cb926a41018b279747d702d329",
            "sibling": "0x44ef89daadd3a70d440f9af05579a1f73d2d9407710c524f21903ee56f3f3f1a",
            "node_type": 4
          },
          "pathPart": "0x0"
        },
        {
          "root": "0x21c93afa043be744e054aa90a3021bc3c28df7eb73686826fdb1af882db68d00",
          "leaf": {
            "value": "0x01a0cb636f821145c93f3fe1c01ef770710634b11442e684e9b2a3a5661ea11c",
            "sibling": "0x44ef89daadd3a70d440f9af05579a1f73d2d9407710c524f21903ee56f3f3f1a",
            "node_type": 4
          },
          "pathPart": "0x0"
        }
      ],
      "accountUpdate": [
        {
          "nonce": 0,
          "balance": "0xde0b6b3a7640000",
          "codeHash": "0xc5d2460186f7233c927e7db2dcc703c0e500b653ca82273b7bfad8045d85a470",
          "poseidonCodeHash": "0x2098f5fb9e239eab3ceac3f27b81e481dc3124d55ffed523a839ee8446b64864",
          "codeSize": 0
        },
        {
          "nonce": 1,
          "balance": "0xde0b6b3a7640000",
          "codeHash": "0xc5d2460186f7233c927e7db2dcc703c0e500b653ca82273b7bfad8045d85a470",
          "poseidonCodeHash": "0x2098f5fb9e239eab3ceac3f27b81e481dc3124d55ffed523a839ee8446b64864",
          "codeSize": 0
        }
      ],
      "statePath": [
        null,
        null
      ],
      "commonStateRoot": "0x0000000000000000000000000000000000000000000000000000000000000000"
    }
  ],
  [
    "BalanceChanged",
    {
      "address": "0xa94f5374fce5edbc8e2a8697c15331677e6ebf0b",
      "accountKey": "0x44ef89daadd3a70d440f9af05579a1f73d2d9407710c524f21903ee56f3f3f1a",
      "accountPath": [
        {
          "root": "0x21c93afa043be744e054aa90a3021bc3c28df7eb73686826fdb1af882db68d00",
          "leaf": {
            "value": "0x01a0cb636f821145c93f3fe1c01ef770710634b11442e684e9b2a3a5661ea11c",
            "sibling": "0x44ef89daadd3a70d440f9af05579a1f73d2d9407710c524f21903ee56f3f3f1a",
            "node_type": 4
          },
          "pathPart": "0x0"
        },
        {
          "root": "0xb6a81800a5caa2576fc916d7b53dd7abc0439a6b80d177394b3fe0e00b8bbf2e",
          "leaf": {
            "value": "0xf90e9fb8011123e5fe020cd4d65c150902658a2ef051090d46c6f48de6d2d405",
            "sibling": "0x44ef89daadd3a70d440f9af05579a1f73d2d9407710c524f21903ee56f3f3f1a",
            "node_type": 4
          },
          "pathPart": "0x0"
        }
      ],
      "accountUpdate": [
        {
          "nonce": 1,
          "balance": "0xde0b6b3a7640000",
          "codeHash": "0xc5d2460186f7233c927e7db2dcc703c0e500b653ca82273b7bfad8045d85a470",
          "poseidonCodeHash": "0x2098f5fb9e239eab3ceac3f27b81e481dc3124d55ffed523a839ee8446b64864",
          "codeSize": 0
        },
        {
          "nonce": 1,
          "balance": "0xde0b6b3a75b6e5e",
          "codeHash": "0xc5d2460186f7233c927e7db2dcc703c0e500b653ca82273b7bfad8045d85a470",
          "poseidonCodeHash": "0x2098f5fb9e239eab3ceac3f27b81e481dc3124d55ffed523a839ee8446b64864",
          "codeSize": 0
        }
      ],
      "statePath": [
        null,
        null
      ],
      "commonStateRoot": "0x0000000000000000000000000000000000000000000000000000000000000000"
    }
  ],
  [
    "StorageDoesNotExist",
    {
      "address": "0x5300000000000000000000000000000000000000",
      "accountKey": "0x0e246ded53daafa183c0d7b6ff1427e8318b63f416ac264dd3ea5ff3dc9b3808",
      "accountPath": [
        {
          "root": "0xb6a81800a5caa2576fc916d7b53dd7abc0439a6b80d177394b3fe0e00b8bbf2e",
          "leaf": {
            "value": "0xf90e9fb8011123e5fe020cd4d65c150902658a2ef051090d46c6f48de6d2d405",
            "sibling": "0x44ef89daadd3a70d440f9af05579a1f73d2d9407710c524f21903ee56f3f3f1a",
            "node_type": 4
          },
          "pathPart": "0x0"
        },
        {
          "root": "0xb6a81800a5caa2576fc916d7b53dd7abc0439a6b80d177394b3fe0e00b8bbf2e",
          "leaf": {
            "value": "0xf90e9fb8011123e5fe020cd4d65c150902658a2ef051090d46c6f48de6d2d405",
            "sibling": "0x44ef89daadd3a70d440f9af05579a1f73d2d9407710c524f21903ee56f3f3f1a",
            "node_type": 4
          },
          "pathPart": "0x0"
        }
      ],
      "accountUpdate": [
        null,
        null
      ],
      "statePath": [
        null,
        null
      ],
      "commonStateRoot": "0x0000000000000000000000000000000000000000000000000000000000000000",
      "stateKey": "0x0000000000000000000000000000000000000000000000000000000000000000"
    }
  ],
  [
    "StorageDoesNotExist",
    {
      "address": "0x5300000000000000000000000000000000000002",
      "accountKey": "0xc964ea4804d91b686d3213d75187b806cca56a03a8e669c905fbd1e415689a13",
      "accountPath": [
        {
          "root": "0xb6a81800a5caa2576fc916d7b53dd7abc0439a6b80d177394b3fe0e00b8bbf2e",
          "leaf": {
            "value": "0xf90e9fb8011123e5fe020cd4d65c150902658a2ef051090d46c6f48de6d2d405",
            "sibling": "0x44ef89daadd3a70d440f9af05579a1f73d2d9407710c524f21903ee56f3f3f1a",
            "node_type": 4
          },
          "pathPart": "0x0"
        },
        {
          "root": "0xb6a81800a5caa2576fc916d7b53dd7abc0439a6b80d177394b3fe0e00b8bbf2e",
          "leaf": {
            "value": "0xf90e9fb8011123e5fe020cd4d65c150902658a2ef051090d46c6f48de6d2d405",
            "sibling": "0x44ef89daadd3a70d440f9af05579a1f73d2d9407710c524f21903ee56f3f3f1a",
            "node_type": 4
          },
          "pathPart": "0x0"
        }
      ],
      "accountUpdate": [
        null,
        null
      ],
      "statePath": [
        null,
        null
      ],
      "commonStateRoot": "0x0000000000000000000000000000000000000000000000000000000000000000",
      "stateKey": "0x0000000000000000000000000000000000000000000000000000000000000001"
    }
  ],
  [
    "StorageDoesNotExist",
    {
      "address": "0x5300000000000000000000000000000000000002",
      "accountKey": "0xc964ea4804d91b686d3213d75187b806cca56a03a8e669c905fbd1e415689a13",
      "accountPath": [
        {
          "root": "0xb6a81800a5caa2576fc916d7b53dd7abc0439a6b80d177394b3fe0e00b8bbf2e",
          "leaf": {
            "value": "0xf90e9fb8011123e5fe020cd4d65c150902658a2ef051090d46c6f48de6d2d405",
            "sibling": "0x44ef89daadd3a70d440f9af05579a1f73d2d9407710c524f21903ee56f3f3f1a",
            "node_type": 4
          },
          "pathPart": "0x0"
        },
        {
          "root": "0xb6a81800a5caa2576fc916d7b53dd7abc0439a6b80d177394b3fe0e00b8bbf2e",
          "leaf": {
            "value": "0xf90e9fb8011123e5fe020cd4d65c150902658a2ef051090d46c6f48de6d2d405",
            "sibling": "0x44ef89daadd3a70d440f9af05579a1f73d2d9407710c524f21903ee56f3f3f1a",
            "node_type": 4
          },
          "pathPart": "0x0"
        }
      ],
      "accountUpdate": [
        null,
        null
      ],
      "statePath": [
        null,
        null
      ],
      "commonStateRoot": "0x0000000000000000000000000000000000000000000000000000000000000000",
      "stateKey": "0x0000000000000000000000000000000000000000000000000000000000000002"
    }
  ],
  [
    "StorageDoesNotExist",
    {
      "address": "0x5300000000000000000000000000000000000002",
      "accountKey": "0xc964ea4804d91b686d3213d75187b806cca56a03a8e669c905fbd1e415689a13",
      "accountPath": [
        {
          "root": "0xb6a81800a5caa2576fc916d7b53dd7abc0439a6b80d177394b3fe0e00b8bbf2e",
          "leaf": {
            "value": "0xf90e9fb8011123e5fe020cd4d65c150902658a2ef051090d46c6f48de6d2d405",
            "sibling": "0x44ef89daadd3a70d440f9af05579a1f73d2d9407710c524f21903ee56f3f3f1a",
            "node_type": 4
          },
          "pathPart": "0x0"
        },
        {
          "root": "0xb6a81800a5caa2576fc916d7b53dd7abc0439a6b80d177394b3fe0e00b8bbf2e",
          "leaf": {
            "value": "0xf90e9fb8011123e5fe020cd4d65c150902658a2ef051090d46c6f48de6d2d405",
            "sibling": "0x44ef89daadd3a70d440f9af05579a1f73d2d9407710c524f21903ee56f3f3f1a",
            "node_type": 4
          },
          "pathPart": "0x0"
        }
      ],
      "accountUpdate": [
        null,
        null
      ],
      "statePath": [
        null,
        null
      ],
      "commonStateRoot": "0x0000000000000000000000000000000000000000000000000000000000000000",
      "stateKey": "0x0000000000000000000000000000000000000000000000000000000000000003"
    }
  ],
  [
    "StorageDoesNotExist",
    {
      "address": "0x6295ee1b4f6dd65047762f924ecd367c17eabf8f",
      "accountKey": "0x293ccdc4280a75784fbdf8c7ae69b76e0852a88b140a7f330f49783d1347f626",
      "accountPath": [
        {
          "root": "0xb6a81800a5caa2576fc916d7b53dd7abc0439a6b80d177394b3fe0e00b8bbf2e",
          "leaf": {
            "value": "0xf90e9fb8011123e5fe020cd4d65c150902658a2ef051090d46c6f48de6d2d405",
            "sibling": "0x44ef89daadd3a70d440f9af05579a1f73d2d9407710c524f21903ee56f3f3f1a",
            "node_type": 4
          },
          "pathPart": "0x0"
        },
        {
          "root": "0xb6a81800a5caa2576fc916d7b53dd7abc0439a6b80d177394b3fe0e00b8bbf2e",
          "leaf": {
            "value": "0xf90e9fb8011123e5fe020cd4d65c150902658a2ef051090d46c6f48de6d2d405",
            "sibling": "0x44ef89daadd3a70d440f9af05579a1f73d2d9407710c524f21903ee56f3f3f1a",
            "node_type": 4
          },
          "pathPart": "0x0"
        }
      ],
      "accountUpdate": [
        null,
        null
      ],
      "statePath": [
        null,
        null
      ],
      "commonStateRoot": "0x0000000000000000000000000000000000000000000000000000000000000000",
      "stateKey": "0x0000000000000000000000000000000000000000000000000000000000000001"
    }
  ]
]
"#

/-- The updates of that file, with their `path_part`s. -/
def createNameUpdates : List (MPTProofType × Trace) :=
  List.zipWith (fun p u => (u.1, withParts p.1 p.2.1 p.2.2.1 p.2.2.2 u.2))
    [(0, 0, 0, 0), (0, 0, 0, 0), (0, 0, 0, 0), (0, 0, 0, 0), (0, 0, 0, 0), (0, 0, 0, 0), (0, 0, 0, 0), (0, 0, 0, 0), (0, 0, 0, 0), (0, 0, 0, 0), (0, 0, 0, 0), (0, 0, 0, 0)] createName

/-- Reading the file gives the updates of `Fixtures/Traces`, and writing them gives the file. -/
theorem file_createName : ∃ us, updatesFromStr text_createName = some us ∧
    us.map (fun u => (u.1, u.2.used)) = createName ∧
    printPretty (.arr (us.map seUpdate)) ++ [10] = text_createName := by
  have h := eqText_sound (printPretty (.arr (createNameUpdates.map seUpdate)) ++ [10]) text_createName
    (by decide +kernel)
  have ht : createNameUpdates.all (fun u => typedB u.2) = true := by decide +kernel
  refine ⟨createNameUpdates, ?_, ?_, h⟩
  · rw [← h]
    exact c59_round_trip_updates_pretty _
      (fun u hu => typedB_sound (List.all_eq_true.1 ht u hu)) [10] (by decide)
  · simp only [createNameUpdates, createName, List.zipWith_cons_cons, List.zipWith_nil_left, List.map_cons,
      List.map_nil, used_withParts]

end Mpt.Fixtures
