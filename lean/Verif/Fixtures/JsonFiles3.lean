import Verif.Fixtures.JsonCheck
import Verif.Fixtures.JsonFiles2

set_option autoImplicit false

/-! # The JSON files of the repository (part 3)

(The parts import each other only so that they are not built at the same time.) -/

namespace Mpt.Fixtures
open Mpt Types Serde Json Props

/-- /repo/src/traces/empty_storage_type_2_update_a.json, lines 1-144. -/
def text_empty_storage_type_2_update_a : Text := utf8% r#"{
  "address": "0x0101010101010101010101010101010101010101",
  "accountKey": "0x2368fc91ec42cf498e51d1796cfcacf1efb26920e114962fb9c4763b1080341d",
  "accountPath": [
    {
      "root": "0xb696019bc06c70a975c602aa0d7a1fa25c04e18cf48d7b4ead1ad980481d6616",
      "leaf": {
        "value": "0xd472374b1135b67ffc1d5414460fe3b4efaf31ce9ae4c83d1364ba87a9472a2c",
        "sibling": "0x2368fc91ec42cf498e51d1796cfcacf1efb26920e114962fb9c4763b1080341d",
        "node_type": 4
      },
      "path": [
        {
          "value": "0xa8ba04fc659bc821c6dbc1f6775dcb9e83dd215a1943c6a6c5375bdb65498b24",
          "sibling": "0xa66d39d51412f50d7df0c6388c765c74b023a3e5d9eba9cbc80b6ef17f76ab1e",
          "node_type": 9
        },
        {
          "value": "0x339130a89388cf0ced2bb4f9b4e5073930e4121e16ee46e301acfcce18a3220d",
          "sibling": "0xf485d05d32be22082faed55e8c38826fec4a8250f41ce4639d51fb249c322127",
          "node_type": 9
        },
        {
          "value": "0x1488ae111aac349974efc97e73fc7415540a43249af5155997dbb0c2f22fc201",
          "sibling": "0xebb8b01466f6764df4b8b2a3d180b849b9616c536c0a4b6f107e3b10a739761e",
          "node_type": 6
        }
      ],
      "pathPart": "0x3"
    },
    {
      "root": "0x3630c1fc10b0712ce42a7ea80aab96f959c0ee18f1357a68c04f244f3f45a224",
      "leaf": {
        "value": "0xc68c138b7bf413375e49b21e3d86eec221d4ad5261d15298889d29cab28d6814",
        "sibling": "0x2368fc91ec42cf498e51d1796cfcacf1efb26920e114962fb9c4763b1080341d",
        "node_type": 4
      },
      "path": [
        {
          "value": "0x570ae52fb01033d690c7265832c37c1177c68deec178ed9d1b33fc2379a42b08",
          "sibling": "0xa66d39d51412f50d7df0c6388c765c74b023a3e5d9eba9cbc80b6ef17f76ab1e",
          "node_type": 9
        },
        {
          "value": "0x0c6f6cc1ebc4a74e6c249d6c84de7f775f2f6ddc429dffd7c4d972bf81f6d310",
          "sibling": "0xf485d05d32be22082faed55e8c38826fec4a8250f41ce4639d51fb249c322127",
          "node_type": 9
        },
        {
          "value": "0xd87b24034564326cbaaf90ed5b2a85cf6db067aeb538a6ead52e91ee238db129",
          "sibling": "0xebb8b01466f6764df4b8b2a3d180b849b9616c536c0a4b6f107e3b10a739761e",
          "node_type": 6
        }
      ],
      "pathPart": "0x3"
    }
  ],
  "accountUpdate": [
    {
      "nonce": 0,
      "balance": "0x1",
      "codeHash": "0x0000000000000000000000000000000000000000000000000000000000000000",
      "poseidonCodeHash": "0x0000000000000000000000000000000000000000000000000000000000000000",
      "codeSize": 0
    },
    {
      "nonce": 0,
      "balance": "0x1",
      "codeHash": "0x0000000000000000000000000000000000000000000000000000000000000000",
      "poseidonCodeHash": "0x0000000000000000000000000000000000000000000000000000000000000000",
      "codeSize": 0
    }
  ],
  "statePath": [
    {
      "root": "0x9f8447ba78ad7e1c7566d9242c8c6d77f02dfe081717cb0a1fe024485735290e",
      "path": [
        {
          "value": "0x233ebad9cd643db2577e9a70c76a24705fc5e4f3b450c3bdcab4b7162a1e7012",
          "sibling": "0xf4d5d6e3ae2e36f7a099a2a7ed72432b173f3211c0c2b4d4e10e023030428829",
          "node_type": 9
        },
        {
          "value": "0x9594a5a6bf52685e0fbfbc9b10d02baa4525837fe7774cbe86ab5b96dd15ee0d",
          "sibling": "0x720c52d0a1382db2c1c8d60502578d5497139182e5b52988ca96a2e2cb5ed81b",
          "node_type": 9
        },
        {
          "value": "0xf5ddf83d9e16d65c3bacd2e8093581d7c5da48dd8cf2ea7b3d07b15adbe2d525",
          "sibling": "0x1159be0b5a22d4285fa446314948200958a5752517fbd165e9151c1ca978e601",
          "node_type": 9
        },
        {
          "value": "0x0000000000000000000000000000000000000000000000000000000000000000",
          "sibling": "0xb708b9dd7dd910bd3aff840e6b5c57b3a539aa8177c0403d56a252bfced52a2a",
          "node_type": 7
        }
      ],
      "pathPart": "0x1"
    },
    {
      "root": "0x39c51c95828f752fff0a45a4aad485e8ce3a67bb690d4813d55f5d586b943d28",
      "leaf": {
        "value": "0xbf4245864783af356463b2c5af200bb87bc64171dd99a8ac0acc67bfa408f600",
        "sibling": "0xd15631dde47d33a3a51eba7eae19cd91bcfa31af04f9f862dc086ab1f757761c",
        "node_type": 4
      },
      "path": [
        {
          "value": "0x3107aa2b137a3ecee6225245b59c4efbaea3c269a69b50a89d18ac96636a081a",
          "sibling": "0xf4d5d6e3ae2e36f7a099a2a7ed72432b173f3211c0c2b4d4e10e023030428829",
          "node_type": 9
        },
        {
          "value": "0x4d6e294449fadb158d2cfa7c6409412bc0f82123f9115eb4044a2c3b83d8f513",
          "sibling": "0x720c52d0a1382db2c1c8d60502578d5497139182e5b52988ca96a2e2cb5ed81b",
          "node_type": 9
        },
        {
          "value": "0xafe665ce22fd76a2a0fd4e190d1f7081128e23eced889a7214c87b536c790501",
          "sibling": "0x1159be0b5a22d4285fa446314948200958a5752517fbd165e9151c1ca978e601",
          "node_type": 9
        },
        {
          "value": "0xf8eee5c40ebcb807d2820ca1b70b44a83fe1c0afd5fcd56c8a589aa248d75203",
          "sibling": "0xb708b9dd7dd910bd3aff840e6b5c57b3a539aa8177c0403d56a252bfced52a2a",
          "node_type": 7
        }
      ],
      "pathPart": "0x1"
    }
  ],
  "stateKey": "0xd15631dde47d33a3a51eba7eae19cd91bcfa31af04f9f862dc086ab1f757761c",
  "stateUpdate": [
    {
      "key": "0x00000000000000000000000000000000000000000000000000000000000001f6",
      "value": "0x0000000000000000000000000000000000000000000000000000000000000000"
    },
    {
      "key": "0x00000000000000000000000000000000000000000000000000000000000001f6",
      "value": "0x0000000000000000000000000000000000000000000000000000000000000133"
    }
  ]
}
"#

theorem file_empty_storage_type_2_update_a : SameFile text_empty_storage_type_2_update_a empty_storage_type_2_update_a :=
  sameFile_of 3 3 1 1 _ _ (by decide +kernel) (by decide +kernel)

/-- /repo/src/traces/empty_storage_type_2_update_b.json, lines 1-144. -/
def text_empty_storage_type_2_update_b : Text := utf8% r#"{
  "address": "0x0101010101010101010101010101010101010101",
  "accountKey": "0x2368fc91ec42cf498e51d1796cfcacf1efb26920e114962fb9c4763b1080341d",
  "accountPath": [
    {
      "root": "0xb696019bc06c70a975c602aa0d7a1fa25c04e18cf48d7b4ead1ad980481d6616",
      "leaf": {
        "value": "0xd472374b1135b67ffc1d5414460fe3b4efaf31ce9ae4c83d1364ba87a9472a2c",
        "sibling": "0x2368fc91ec42cf498e51d1796cfcacf1efb26920e114962fb9c4763b1080341d",
        "node_type": 4
      },
      "path": [
        {
          "value": "0xa8ba04fc659bc821c6dbc1f6775dcb9e83dd215a1943c6a6c5375bdb65498b24",
          "sibling": "0xa66d39d51412f50d7df0c6388c765c74b023a3e5d9eba9cbc80b6ef17f76ab1e",
          "node_type": 9
        },
        {
          "value": "0x339130a89388cf0ced2bb4f9b4e5073930e4121e16ee46e301acfcce18a3220d",
          "sibling": "0xf485d05d32be22082faed55e8c38826fec4a8250f41ce4639d51fb249c322127",
          "node_type": 9
        },
        {
          "value": "0x1488ae111aac349974efc97e73fc7415540a43249af5155997dbb0c2f22fc201",
          "sibling": "0xebb8b01466f6764df4b8b2a3d180b849b9616c536c0a4b6f107e3b10a739761e",
          "node_type": 6
        }
      ],
      "pathPart": "0x3"
    },
    {
      "root": "0x1c8ed14e3acc3c48ac2ff30de56516f9f779c04b09baa957e2b3bf474e5c6811",
      "leaf": {
        "value": "0xb4b44f01c466db3685bd0e5e016bcb45be5da612c252362aee0ea129716b6114",
        "sibling": "0x2368fc91ec42cf498e51d1796cfcacf1efb26920e114962fb9c4763b1080341d",
        "node_type": 4
      },
      "path": [
        {
          "value": "0x68b506f7859b358437662e04b491a9dcf0beeb3c64a795ac5348fa6e04a7fb0e",
          "sibling": "0xa66d39d51412f50d7df0c6388c765c74b023a3e5d9eba9cbc80b6ef17f76ab1e",
          "node_type": 9
        },
        {
          "value": "0x9bbd3ec8ba0ee44923298615dc1355313b99ece5cf10354856af33ab4fc69c1b",
          "sibling": "0xf485d05d32be22082faed55e8c38826fec4a8250f41ce4639d51fb249c322127",
          "node_type": 9
        },
        {
          "value": "0x65e0c483d7a3f4c7e2d92cc2fb95538712cf5ae8d71973e40b5449f93f8ef308",
          "sibling": "0xebb8b01466f6764df4b8b2a3d180b849b9616c536c0a4b6f107e3b10a739761e",
          "node_type": 6
        }
      ],
      "pathPart": "0x3"
    }
  ],
  "accountUpdate": [
    {
      "nonce": 0,
      "balance": "0x1",
      "codeHash": "0x0000000000000000000000000000000000000000000000000000000000000000",
      "poseidonCodeHash": "0x0000000000000000000000000000000000000000000000000000000000000000",
      "codeSize": 0
    },
    {
      "nonce": 0,
      "balance": "0x1",
      "codeHash": "0x0000000000000000000000000000000000000000000000000000000000000000",
      "poseidonCodeHash": "0x0000000000000000000000000000000000000000000000000000000000000000",
      "codeSize": 0
    }
  ],
  "statePath": [
    {
      "root": "0x9f8447ba78ad7e1c7566d9242c8c6d77f02dfe081717cb0a1fe024485735290e",
      "path": [
        {
          "value": "0x233ebad9cd643db2577e9a70c76a24705fc5e4f3b450c3bdcab4b7162a1e7012",
          "sibling": "0xf4d5d6e3ae2e36f7a099a2a7ed72432b173f3211c0c2b4d4e10e023030428829",
          "node_type": 9
        },
        {
          "value": "0x9594a5a6bf52685e0fbfbc9b10d02baa4525837fe7774cbe86ab5b96dd15ee0d",
          "sibling": "0x720c52d0a1382db2c1c8d60502578d5497139182e5b52988ca96a2e2cb5ed81b",
          "node_type": 9
        },
        {
          "value": "0x1159be0b5a22d4285fa446314948200958a5752517fbd165e9151c1ca978e601",
          "sibling": "0xf5ddf83d9e16d65c3bacd2e8093581d7c5da48dd8cf2ea7b3d07b15adbe2d525",
          "node_type": 9
        },
        {
          "value": "0x0000000000000000000000000000000000000000000000000000000000000000",
          "sibling": "0xa1e945602598269f8a2a639969f2abda2ad190337d489adda7ebb16c5693d021",
          "node_type": 8
        }
      ],
      "pathPart": "0xd"
    },
    {
      "root": "0x5bd19d96b0c37ac7ef57c429eb02bc447ddecd013b6005c41878b5c9e8a7f90a",
      "leaf": {
        "value": "0xbf4245864783af356463b2c5af200bb87bc64171dd99a8ac0acc67bfa408f600",
        "sibling": "0xdd5604412ca6840ca95fa06554b3d78df7b5ce751c48259a50e1d781a6b53613",
        "node_type": 4
      },
      "path": [
        {
          "value": "0xe927005f5f8a8edf6f9b5ccff22a0cb9ddcf1841ec28f26baa1179296d4e1218",
          "sibling": "0xf4d5d6e3ae2e36f7a099a2a7ed72432b173f3211c0c2b4d4e10e023030428829",
          "node_type": 9
        },
        {
          "value": "0x05f4fe08f426f5cd4cd9ecc8d1ff49efdd504b4df47b5f91e27166781a63270b",
          "sibling": "0x720c52d0a1382db2c1c8d60502578d5497139182e5b52988ca96a2e2cb5ed81b",
          "node_type": 9
        },
        {
          "value": "0xb1ed8e1e50666bf29208dc9570e01759ee24b9b02db70bd842ed687c0dfe0800",
          "sibling": "0xf5ddf83d9e16d65c3bacd2e8093581d7c5da48dd8cf2ea7b3d07b15adbe2d525",
          "node_type": 9
        },
        {
          "value": "0x6bc2da984016a256af4256511fa2ff0a47b2c96f45ddebe33689270212c5c218",
          "sibling": "0xa1e945602598269f8a2a639969f2abda2ad190337d489adda7ebb16c5693d021",
          "node_type": 8
        }
      ],
      "pathPart": "0xd"
    }
  ],
  "stateKey": "0xdd5604412ca6840ca95fa06554b3d78df7b5ce751c48259a50e1d781a6b53613",
  "stateUpdate": [
    {
      "key": "0x00000000000000000000000000000000000000000000000000000000000001f4",
      "value": "0x0000000000000000000000000000000000000000000000000000000000000000"
    },
    {
      "key": "0x00000000000000000000000000000000000000000000000000000000000001f4",
      "value": "0x0000000000000000000000000000000000000000000000000000000000000133"
    }
  ]
}
"#

theorem file_empty_storage_type_2_update_b : SameFile text_empty_storage_type_2_update_b empty_storage_type_2_update_b :=
  sameFile_of 3 3 13 13 _ _ (by decide +kernel) (by decide +kernel)

/-- /repo/src/traces/depth_1_type_1_storage.json, lines 1-129. -/
def text_depth_1_type_1_storage : Text := utf8% r#"{
  "address": "0x03f8133dd5ed58838b20af1296f62f44e69baa48",
  "accountKey": "0x5cc5740d42ad79f1b9ce9451a084e26632cc9aee8ee7f747a29d07bf8863ed1b",
  "accountPath": [
    {
      "root": "0x75350e959b64b865c76737751c9cfa23f1e35aa416810b8f6b655c85b07aca1c",
      "leaf": {
        "value": "0x779a269cc632a5d2668d20b01b20489fde58941b322fde4677ef2ebe118e6f20",
        "sibling": "0x5cc5740d42ad79f1b9ce9451a084e26632cc9aee8ee7f747a29d07bf8863ed1b",
        "node_type": 4
      },
      "path": [
        {
          "value": "0x109004f4385fc231bee2a20b2921e1a9088636bfdb690a647121e1c605de0f01",
          "sibling": "0xe5c1fc68d2b728115a6f79fb38ee57ffff5859ebec9caaa7bc54986119ee5c02",
          "node_type": 9
        },
        {
          "value": "0x0359541ab054404bc94af4188de1df74e1cdc8bc80aacb8d9944fe416b2fe621",
          "sibling": "0xd454ada20a5db3b7ace82d2bf8aead0ef7da859582da4de86e71cf822ebcc827",
          "node_type": 9
        },
        {
          "value": "0xa69528847504d7d3ce4bc46bb04b82382dda2df17a911c6b299312bcdf06b62f",
          "sibling": "0xf9b45f4acabaa7e6937d8dac46059c85188c93404b8b81762c3c1da5746acd0f",
          "node_type": 6
        }
      ],
      "pathPart": "0x4"
    },
    {
      "root": "0xb0cc90cb23834dbcf7c3c359dc13d92bf8e1ab972222db24f37c607502457329",
      "leaf": {
        "value": "0xb23690306d435fcd7851b61f9e5b584cb2b799b383df49b8aac578759ded7a04",
        "sibling": "0x5cc5740d42ad79f1b9ce9451a084e26632cc9aee8ee7f747a29d07bf8863ed1b",
        "node_type": 4
      },
      "path": [
        {
          "value": "0xd45136e52dbf61f56933cf3f6a1963e6e1e7f9d8a5ff3de6ceeb4b43ea04b91d",
          "sibling": "0xe5c1fc68d2b728115a6f79fb38ee57ffff5859ebec9caaa7bc54986119ee5c02",
          "node_type": 9
        },
        {
          "value": "0x9034c0822065b65b03ad4b45e28f8b5d4e1d0ae0c0a3ea0fc582d30ed4e16b00",
          "sibling": "0xd454ada20a5db3b7ace82d2bf8aead0ef7da859582da4de86e71cf822ebcc827",
          "node_type": 9
        },
        {
          "value": "0x27bc4f663b5a51827390b6940763918440f96cea2bbbaf3d6bc386489d60ba11",
          "sibling": "0xf9b45f4acabaa7e6937d8dac46059c85188c93404b8b81762c3c1da5746acd0f",
          "node_type": 6
        }
      ],
      "pathPart": "0x4"
    }
  ],
  "accountUpdate": [
    {
      "nonce": 1,
      "balance": "0x0",
      "codeHash": "0x16fc66d15010e6213d2a009f57ed8e847717ea0b83eeb37cd322e9ad1b018a3e",
      "poseidonCodeHash": "0x0d85b09a93d5ed99a87d27dcf6d50e4459d16bb694e70f89eefcb745ea1c85e7",
      "codeSize": 4507
    },
    {
      "nonce": 1,
      "balance": "0x0",
      "codeHash": "0x16fc66d15010e6213d2a009f57ed8e847717ea0b83eeb37cd322e9ad1b018a3e",
      "poseidonCodeHash": "0x0d85b09a93d5ed99a87d27dcf6d50e4459d16bb694e70f89eefcb745ea1c85e7",
      "codeSize": 4507
    }
  ],
  "statePath": [
    {
      "root": "0xa6d1ca9e941bc47b27ef7bbbecb327d2e3183ab6b729014b2f33f70a079f610a",
      "leaf": {
        "value": "0x2e1cb8b9dc00f6834b26d763e0733c3045a0e2262f5b4a1fd16a99b099b8dc0a",
        "sibling": "0xebbde6853f0d7fd5c795a751c763ee866f603ddd45a59a14ad1189f04105c506",
        "node_type": 4
      },
      "path": [
        {
          "value": "0xb2f29b80761a58f1144c3afeb97b7a8d8ddb9fe9bbbd2efabec9401a7937980a",
          "sibling": "0xd1a4b5f37b62fd698f85d93925f579394db4404e186f21e6df6670f23bc9d027",
          "node_type": 6
        }
      ],
      "pathPart": "0x1"
    },
    {
      "root": "0x94571a8d28220d48d3db2ee8be4a4f42fb20e4c09325397bc4e36d80f0de3b21",
      "leaf": {
        "value": "0x937d5f0461f0cc3c2607ade7f55e4c0952b5977d73a97392e054f0c95b3f3300",
        "sibling": "0x775788db2d0c83b883dc4705090775d5ba4fdca68379a90e9c48e3b6529ded1a",
        "node_type": 4
      },
      "path": [
        {
          "value": "0x37f76144ee25efb94ae9609251c9fa4cd19648d74454805bfab59183fad1eb01",
          "sibling": "0xd1a4b5f37b62fd698f85d93925f579394db4404e186f21e6df6670f23bc9d027",
          "node_type": 7
        },
        {
          "value": "0x766dfedbd4683dff3d7e1fbd3c274a1cf2b4286c369e4bf7b69a0ef0bb364710",
          "sibling": "0x0000000000000000000000000000000000000000000000000000000000000000",
          "node_type": 7
        },
        {
          "value": "0x804597600908545e7ba96b5f7e3b3010d6d041af15226770d6f9886286d72313",
          "sibling": "0xb2f29b80761a58f1144c3afeb97b7a8d8ddb9fe9bbbd2efabec9401a7937980a",
          "node_type": 6
        }
      ],
      "pathPart": "0x7"
    }
  ],
  "stateKey": "0x775788db2d0c83b883dc4705090775d5ba4fdca68379a90e9c48e3b6529ded1a",
  "stateUpdate": [
    {
      "key": "0x0000000000000000000000000000000000000000000000000000000000000005",
      "value": "0x0000000000000000000000000000000000000000000000000000000000000000"
    },
    {
      "key": "0x0000000000000000000000000000000000000000000000000000000000000005",
      "value": "0x000000000000000000001c5a77d9fa7ef466951b2f01f724bca3a5820b630012"
    }
  ]
}
"#

theorem file_depth_1_type_1_storage : SameFile text_depth_1_type_1_storage depth_1_type_1_storage :=
  sameFile_of 4 4 1 7 _ _ (by decide +kernel) (by decide +kernel)

/-- /repo/src/traces/insert_into_singleton_storage_trie.json, lines 1-112. -/
def text_insert_into_singleton_storage_trie : Text := utf8% r#"{
  "address": "0x0101010101010101010101010101010101010101",
  "accountKey": "0x2368fc91ec42cf498e51d1796cfcacf1efb26920e114962fb9c4763b1080341d",
  "accountPath": [
    {
      "root": "0x83b9340c6a33165701daa415c32625ff2cf62956a23fa3229182d801b4aaaf17",
      "leaf": {
        "value": "0xf4d0c4b8b5e226544d147596eb560ce0e34f0397d126a4b3f0f34a3ef9f74103",
        "sibling": "0x2368fc91ec42cf498e51d1796cfcacf1efb26920e114962fb9c4763b1080341d",
        "node_type": 4
      },
      "path": [
        {
          "value": "0xe9d253e605a354db69343ff5f4184719df70a413ca8fe399d9a701f21f641a16",
          "sibling": "0xa66d39d51412f50d7df0c6388c765c74b023a3e5d9eba9cbc80b6ef17f76ab1e",
          "node_type": 9
        },
        {
          "value": "0x41bdefdca0b4003f8528065c189004814835b182f42a6d4df873f5cd0b42ea24",
          "sibling": "0xf485d05d32be22082faed55e8c38826fec4a8250f41ce4639d51fb249c322127",
          "node_type": 9
        },
        {
          "value": "0xfa899826153ef28c7baf78e37799a8d9b4b59e612bc29e44d8519de254349b0b",
          "sibling": "0xebb8b01466f6764df4b8b2a3d180b849b9616c536c0a4b6f107e3b10a739761e",
          "node_type": 6
        }
      ],
      "pathPart": "0x3"
    },
    {
      "root": "0x5bd928092961b8afe05adf64c42fcaf762698ac9fa7a8e210b77c53c958bdd0d",
      "leaf": {
        "value": "0xecb1e80fe56518f7715d59f4127704ec8df5c63c4e0d7d69737ea4c4703ea917",
        "sibling": "0x2368fc91ec42cf498e51d1796cfcacf1efb26920e114962fb9c4763b1080341d",
        "node_type": 4
      },
      "path": [
        {
          "value": "0x9883bd3c95e670456325da92f066458fe3b086084d53b17d20d99b4a2dd64918",
          "sibling": "0xa66d39d51412f50d7df0c6388c765c74b023a3e5d9eba9cbc80b6ef17f76ab1e",
          "node_type": 9
        },
        {
          "value": "0xa4d6b9ea2ee4a2c857c98f1d6a88dcd1a750d1b1d0c12f0c2eb07bdb008bb701",
          "sibling": "0xf485d05d32be22082faed55e8c38826fec4a8250f41ce4639d51fb249c322127",
          "node_type": 9
        },
        {
          "value": "0x5b3ed283b85cf3b486d003219054470d79fc2a4d76c9e640ed858405de9dd62f",
          "sibling": "0xebb8b01466f6764df4b8b2a3d180b849b9616c536c0a4b6f107e3b10a739761e",
          "node_type": 6
        }
      ],
      "pathPart": "0x3"
    }
  ],
  "accountUpdate": [
    {
      "nonce": 0,
      "balance": "0x1",
      "codeHash": "0x0000000000000000000000000000000000000000000000000000000000000000",
      "poseidonCodeHash": "0x0000000000000000000000000000000000000000000000000000000000000000",
      "codeSize": 0
    },
    {
      "nonce": 0,
      "balance": "0x1",
      "codeHash": "0x0000000000000000000000000000000000000000000000000000000000000000",
      "poseidonCodeHash": "0x0000000000000000000000000000000000000000000000000000000000000000",
      "codeSize": 0
    }
  ],
  "statePath": [
    {
      "root": "0xf98272a84a0b269ca8570319baf2c68ebacb038a0e1076787aa85d547ff2cb07",
      "leaf": {
        "value": "0x7934cd98d51fd603e653f6b03b13edc269299a100867174016312db42eff3a2c",
        "sibling": "0x55dbbd501fc21ad03be98003051b7bd08cdae7e153eefada883227167d198002",
        "node_type": 4
      },
      "pathPart": "0x0"
    },
    {
      "root": "0x33aebe70c4315501e6367ceca3feb4cc404ffb710e393b1d4cfff3f553233c09",
      "leaf": {
        "value": "0x8564322fa664ff339902ab3e0a20582a4c65ca1bb8dfc1be45bfa48f0e43b20e",
        "sibling": "0x84d212cc2c8afac2fe17b77867a38d5b9e1308b0b8b723df2ea83728579b5a0a",
        "node_type": 4
      },
      "path": [
        {
          "value": "0xe24a038e861c1be4dc33eda4c42c49e47d90532fe2e129bfc8b93504c8d0d32a",
          "sibling": "0xf98272a84a0b269ca8570319baf2c68ebacb038a0e1076787aa85d547ff2cb07",
          "node_type": 6
        }
      ],
      "pathPart": "0x0"
    }
  ],
  "stateKey": "0x84d212cc2c8afac2fe17b77867a38d5b9e1308b0b8b723df2ea83728579b5a0a",
  "stateUpdate": [
    {
      "key": "0x00000000000000500000000000000046000000000000003c0000000000000032",
      "value": "0x0000000000000000000000000000000000000000000000000000000000000000"
    },
    {
      "key": "0x00000000000000500000000000000046000000000000003c0000000000000032",
      "value": "0x0000000000000008000000000000000700000000000000060000000000000005"
    }
  ]
}
"#

theorem file_insert_into_singleton_storage_trie : SameFile text_insert_into_singleton_storage_trie insert_into_singleton_storage_trie :=
  sameFile_of 3 3 0 0 _ _ (by decide +kernel) (by decide +kernel)

end Mpt.Fixtures
