import Verif.Fixtures.JsonCheck
import Verif.Fixtures.JsonFiles1

set_option autoImplicit false

/-! # The JSON files of the repository (part 2)

(The parts import each other only so that they are not built at the same time.) -/

namespace Mpt.Fixtures
open Mpt Types Serde Json Props

/-- /repo/src/traces/existing_storage_update.json, lines 1-219. -/
def text_existing_storage_update : Text := utf8% r#"{
  "address": "0x0101010101010101010101010101010101010101",
  "accountKey": "0x2368fc91ec42cf498e51d1796cfcacf1efb26920e114962fb9c4763b1080341d",
  "accountPath": [
    {
      "root": "0xb696019bc06c70a975c602aa0d7a1fa25c04e18cf48d7b4ead1ad980481d6616",
      "leaf": {
        "value": "0xd472374b1135b67ffc1d5414460fe3b4efaf31ce9ae4c83d1364ba87a9472a2c",
        "sibling": "0x2368fc91ec42cf498e51d1796cfcacf1efb26920e114962fb9c4763b1080341d",
        "node_type": 4
      },
      "path": [
        {
          "value": "0xa8ba04fc659bc821c6dbc1f6775dcb9e83dd215a1943c6a6c5375bdb65498b24",
          "sibling": "0xa66d39d51412f50d7df0c6388c765c74b023a3e5d9eba9cbc80b6ef17f76ab1e",
          "node_type": 9
        },
        {
          "value": "0x339130a89388cf0ced2bb4f9b4e5073930e4121e16ee46e301acfcce18a3220d",
          "sibling": "0xf485d05d32be22082faed55e8c38826fec4a8250f41ce4639d51fb249c322127",
          "node_type": 9
        },
        {
          "value": "0x1488ae111aac349974efc97e73fc7415540a43249af5155997dbb0c2f22fc201",
          "sibling": "0xebb8b01466f6764df4b8b2a3d180b849b9616c536c0a4b6f107e3b10a739761e",
          "node_type": 6
        }
      ],
      "pathPart": "0x3"
    },
    {
      "root": "0xda976f8a96f934ef95039a0af321cae53b2c03d073da9938d5d6365e0a21b82e",
      "leaf": {
        "value": "0x955cc7b55a09e9141ad794466730f604e1eb4eb10a2e305d21cf4f790f44081d",
        "sibling": "0x2368fc91ec42cf498e51d1796cfcacf1efb26920e114962fb9c4763b1080341d",
        "node_type": 4
      },
      "path": [
        {
          "value": "0x0b34118237386ca118c49ab4d298e36567cddf52abcc2d20807db0b4e15a8b01",
          "sibling": "0xa66d39d51412f50d7df0c6388c765c74b023a3e5d9eba9cbc80b6ef17f76ab1e",
          "node_type": 9
        },
        {
          "value": "0x547b44a81aa9399d7eda944530333aa26280421fd1561a28892038d9f0d92729",
          "sibling": "0xf485d05d32be22082faed55e8c38826fec4a8250f41ce4639d51fb249c322127",
          "node_type": 9
        },
        {
          "value": "0x4c8b0a27fa1c9be0857281dc06c45625551270bc835feb9614d834c4aaae2818",
          "sibling": "0xebb8b01466f6764df4b8b2a3d180b849b9616c536c0a4b6f107e3b10a739761e",
          "node_type": 6
        }
      ],
      "pathPart": "0x3"
    }
  ],
  "accountUpdate": [
    {
      "nonce": 0,
      "balance": "0x1",
      "codeHash": "0x0000000000000000000000000000000000000000000000000000000000000000",
      "poseidonCodeHash": "0x0000000000000000000000000000000000000000000000000000000000000000",
      "codeSize": 0
    },
    {
      "nonce": 0,
      "balance": "0x1",
      "codeHash": "0x0000000000000000000000000000000000000000000000000000000000000000",
      "poseidonCodeHash": "0x0000000000000000000000000000000000000000000000000000000000000000",
      "codeSize": 0
    }
  ],
  "statePath": [
    {
      "root": "0x9f8447ba78ad7e1c7566d9242c8c6d77f02dfe081717cb0a1fe024485735290e",
      "leaf": {
        "value": "0x50ea2e5d1d10a9ebc255098ff2670e4a4faaa8018a07eb92340063dea69b0426",
        "sibling": "0xf905bf0e3f6390d89aa4bfd38ebec0cd834a15c509be9796b05c44c34405b111",
        "node_type": 4
      },
      "path": [
        {
          "value": "0x233ebad9cd643db2577e9a70c76a24705fc5e4f3b450c3bdcab4b7162a1e7012",
          "sibling": "0xf4d5d6e3ae2e36f7a099a2a7ed72432b173f3211c0c2b4d4e10e023030428829",
          "node_type": 9
        },
        {
          "value": "0x9594a5a6bf52685e0fbfbc9b10d02baa4525837fe7774cbe86ab5b96dd15ee0d",
          "sibling": "0x720c52d0a1382db2c1c8d60502578d5497139182e5b52988ca96a2e2cb5ed81b",
          "node_type": 9
        },
        {
          "value": "0xf5ddf83d9e16d65c3bacd2e8093581d7c5da48dd8cf2ea7b3d07b15adbe2d525",
          "sibling": "0x1159be0b5a22d4285fa446314948200958a5752517fbd165e9151c1ca978e601",
          "node_type": 9
        },
        {
          "value": "0xb708b9dd7dd910bd3aff840e6b5c57b3a539aa8177c0403d56a252bfced52a2a",
          "sibling": "0x0000000000000000000000000000000000000000000000000000000000000000",
          "node_type": 7
        },
        {
          "value": "0xf652ffaa792e9ec458883972eb84eafd5dfd1e2c0c032605f13861bf8589991b",
          "sibling": "0x0000000000000000000000000000000000000000000000000000000000000000",
          "node_type": 7
        },
        {
          "value": "0x0fbb07b28f3fcb0b1927a527c1e851e84f682fa13afd4fa4962982e45e6a6929",
          "sibling": "0x0000000000000000000000000000000000000000000000000000000000000000",
          "node_type": 7
        },
        {
          "value": "0x7133ef86743d5e356ffec6fe0a58f525c6f1020f50da6a7e9219fb89dd295e0f",
          "sibling": "0x4bc93095238464e0c132200f0ae157e2c5d3a238a0820815ebc600b415aeec0e",
          "node_type": 7
        },
        {
          "value": "0xafcd598e4d350231487a54da34cd5772aa222cd10465a9f481999526ffd8bc21",
          "sibling": "0x0000000000000000000000000000000000000000000000000000000000000000",
          "node_type": 7
        },
        {
          "value": "0x41a74d55b4d6bb5d49bff0d8d2453c41ea5e84e19f61c1a40df0165ad5573d1b",
          "sibling": "0x0000000000000000000000000000000000000000000000000000000000000000",
          "node_type": 7
        },
        {
          "value": "0x3571e57644a8d65fd0edf4109d4b3382f901d4c35b3083cd3e25e51b5a41ed1d",
          "sibling": "0x0000000000000000000000000000000000000000000000000000000000000000",
          "node_type": 8
        },
        {
          "value": "0x92f695d8435132c874a2db57bf1fae04f291d1ef1e551caff5a0ca27d29bea0b",
          "sibling": "0x95c9a2c30288e0542ba69389bf846a5cbbd2fafe08ec225dff1d7e795561fc2f",
          "node_type": 6
        }
      ],
      "pathPart": "0x5f9"
    },
    {
      "root": "0x8a84aca5b322747318b728b19ef62de090557bc0266deb1ca595b952096a7529",
      "leaf": {
        "value": "0x2c5d0be0aa5628aa1d5e7886757e225bb17312ac3db0e32ce442a2ff9ce6d511",
        "sibling": "0xf905bf0e3f6390d89aa4bfd38ebec0cd834a15c509be9796b05c44c34405b111",
        "node_type": 4
      },
      "path": [
        {
          "value": "0xeef45d62d450a373a79e8346c621523779eff37836a674d7fbb20e886b995d0c",
          "sibling": "0xf4d5d6e3ae2e36f7a099a2a7ed72432b173f3211c0c2b4d4e10e023030428829",
          "node_type": 9
        },
        {
          "value": "0x8331db301f440968f0130600b90d215e721dd40e4a2bcd29bab4446391ce002c",
          "sibling": "0x720c52d0a1382db2c1c8d60502578d5497139182e5b52988ca96a2e2cb5ed81b",
          "node_type": 9
        },
        {
          "value": "0x17a3fd05ea42fdc83104bd2bed18444cf13336a9c4bed283ef9743ea12aaa113",
          "sibling": "0x1159be0b5a22d4285fa446314948200958a5752517fbd165e9151c1ca978e601",
          "node_type": 9
        },
        {
          "value": "0xa5ffb7158393c1ac82909a4c82aa22caeb8f39aa777e28ebc7b49846a706a30d",
          "sibling": "0x0000000000000000000000000000000000000000000000000000000000000000",
          "node_type": 7
        },
        {
          "value": "0x2a1a9be599581240e9712da9d557d437f66efa9ae07f6392be9f54fd0115fc08",
          "sibling": "0x0000000000000000000000000000000000000000000000000000000000000000",
          "node_type": 7
        },
        {
          "value": "0x62aba3d23d1e11c3407c2d3a04af70e7aac2a5c0a356909e9c8faa2c686fa913",
          "sibling": "0x0000000000000000000000000000000000000000000000000000000000000000",
          "node_type": 7
        },
        {
          "value": "0x5e29eee17941093e287e545e4b01e192a4c38c3c8e9193d3d8826baf1f7e1d0b",
          "sibling": "0x4bc93095238464e0c132200f0ae157e2c5d3a238a0820815ebc600b415aeec0e",
          "node_type": 7
        },
        {
          "value": "0x0244b7f852a9fc7c1e603020ccc818e3996f07404559d944421234bc85f1d509",
          "sibling": "0x0000000000000000000000000000000000000000000000000000000000000000",
          "node_type": 7
        },
        {
          "value": "0x461a403d60e2ad6e9d84672fecb931dbc07ef462e59d49c930834f1fd369802a",
          "sibling": "0x0000000000000000000000000000000000000000000000000000000000000000",
          "node_type": 7
        },
        {
          "value": "0x6c953a769610a414e1a279be76c757198249f0e8cb6e2957415b65085c2af403",
          "sibling": "0x0000000000000000000000000000000000000000000000000000000000000000",
          "node_type": 8
        },
        {
          "value": "0x5790d950a6186fcf3513251370d06241571e78eea1279b276e17906c61816c05",
          "sibling": "0x95c9a2c30288e0542ba69389bf846a5cbbd2fafe08ec225dff1d7e795561fc2f",
          "node_type": 6
        }
      ],
      "pathPart": "0x5f9"
    }
  ],
  "stateKey": "0xf905bf0e3f6390d89aa4bfd38ebec0cd834a15c509be9796b05c44c34405b111",
  "stateUpdate": [
    {
      "key": "0x0000000000000000000000000000000000000000000000000000000000000028",
      "value": "0x0000000000000000000000000000000000000000000000000000000000000001"
    },
    {
      "key": "0x0000000000000000000000000000000000000000000000000000000000000028",
      "value": "0x0000000000000000000000000000000000000000000000000000000000000014"
    }
  ]
}
"#

theorem file_existing_storage_update : SameFile text_existing_storage_update existing_storage_update :=
  sameFile_of 3 3 1529 1529 _ _ (by decide +kernel) (by decide +kernel)

/-- /repo/src/traces/empty_storage_type_1_update_a.json, lines 1-159. -/
def text_empty_storage_type_1_update_a : Text := utf8% r#"{
  "address": "0x0101010101010101010101010101010101010101",
  "accountKey": "0x2368fc91ec42cf498e51d1796cfcacf1efb26920e114962fb9c4763b1080341d",
  "accountPath": [
    {
      "root": "0xb696019bc06c70a975c602aa0d7a1fa25c04e18cf48d7b4ead1ad980481d6616",
      "leaf": {
        "value": "0xd472374b1135b67ffc1d5414460fe3b4efaf31ce9ae4c83d1364ba87a9472a2c",
        "sibling": "0x2368fc91ec42cf498e51d1796cfcacf1efb26920e114962fb9c4763b1080341d",
        "node_type": 4
      },
      "path": [
        {
          "value": "0xa8ba04fc659bc821c6dbc1f6775dcb9e83dd215a1943c6a6c5375bdb65498b24",
          "sibling": "0xa66d39d51412f50d7df0c6388c765c74b023a3e5d9eba9cbc80b6ef17f76ab1e",
          "node_type": 9
        },
        {
          "value": "0x339130a89388cf0ced2bb4f9b4e5073930e4121e16ee46e301acfcce18a3220d",
          "sibling": "0xf485d05d32be22082faed55e8c38826fec4a8250f41ce4639d51fb249c322127",
          "node_type": 9
        },
        {
          "value": "0x1488ae111aac349974efc97e73fc7415540a43249af5155997dbb0c2f22fc201",
          "sibling": "0xebb8b01466f6764df4b8b2a3d180b849b9616c536c0a4b6f107e3b10a739761e",
          "node_type": 6
        }
      ],
      "pathPart": "0x3"
    },
    {
      "root": "0x1e61b81343b4726a39b25af4fcd4809d2599b7344a26310c2ff3ea538b1bb720",
      "leaf": {
        "value": "0xf40471ec703f0c374188ffc2658895da71ba12520daa93978d162ff2ca71b900",
        "sibling": "0x2368fc91ec42cf498e51d1796cfcacf1efb26920e114962fb9c4763b1080341d",
        "node_type": 4
      },
      "path": [
        {
          "value": "0xfe041df6af919fb3d132f5257e5dba276fcee9ac9b19513717485f9722645317",
          "sibling": "0xa66d39d51412f50d7df0c6388c765c74b023a3e5d9eba9cbc80b6ef17f76ab1e",
          "node_type": 9
        },
        {
          "value": "0x15dd24c77e607e3b9ab731dc2370c289e8d383edbd407448b824e17857d6e60c",
          "sibling": "0xf485d05d32be22082faed55e8c38826fec4a8250f41ce4639d51fb249c322127",
          "node_type": 9
        },
        {
          "value": "0x97964b77683ae9296232eec09287a5292fdcabad5ad45043b9b281aa8c9ebf05",
          "sibling": "0xebb8b01466f6764df4b8b2a3d180b849b9616c536c0a4b6f107e3b10a739761e",
          "node_type": 6
        }
      ],
      "pathPart": "0x3"
    }
  ],
  "accountUpdate": [
    {
      "nonce": 0,
      "balance": "0x1",
      "codeHash": "0x0000000000000000000000000000000000000000000000000000000000000000",
      "poseidonCodeHash": "0x0000000000000000000000000000000000000000000000000000000000000000",
      "codeSize": 0
    },
    {
      "nonce": 0,
      "balance": "0x1",
      "codeHash": "0x0000000000000000000000000000000000000000000000000000000000000000",
      "poseidonCodeHash": "0x0000000000000000000000000000000000000000000000000000000000000000",
      "codeSize": 0
    }
  ],
  "statePath": [
    {
      "root": "0x9f8447ba78ad7e1c7566d9242c8c6d77f02dfe081717cb0a1fe024485735290e",
      "leaf": {
        "value": "0x50ea2e5d1d10a9ebc255098ff2670e4a4faaa8018a07eb92340063dea69b0426",
        "sibling": "0x34d524b5f5f6d93367bf6b6452a1aa7e17d8696555258de41be8002cc6cdd42f",
        "node_type": 4
      },
      "path": [
        {
          "value": "0xf4d5d6e3ae2e36f7a099a2a7ed72432b173f3211c0c2b4d4e10e023030428829",
          "sibling": "0x233ebad9cd643db2577e9a70c76a24705fc5e4f3b450c3bdcab4b7162a1e7012",
          "node_type": 9
        },
        {
          "value": "0x5d1276a69a4026e4fef7bcaf66a6a11282ec2a1607f2b245b8acb8fc9bd08927",
          "sibling": "0xf0691fb03392278193e2b56be466d7c6ce4e11e9095cc4a5e5f3bc2dfa96df20",
          "node_type": 9
        },
        {
          "value": "0xd544f1089502952ca7f9a7c7a36e673ffe940269b1db269cfa325683bc580c28",
          "sibling": "0x3e284a214b6cc48e7efb52245561b1341d66871759eff8a4c6651abb9885f005",
          "node_type": 9
        },
        {
          "value": "0xff54e4d29e6dcde6784ec1cdacbd6a30092719795f45f08a50e7514d0ed09a1e",
          "sibling": "0xf20a556d831214034d26d72d4298b438082aeea33d871201a38432b243adc628",
          "node_type": 7
        }
      ],
      "pathPart": "0x4"
    },
    {
      "root": "0xb63c17f2fe2bd4edc7362246aff9b8d02c0819fec8be095f6b4f0a1916599b1a",
      "leaf": {
        "value": "0xbf4245864783af356463b2c5af200bb87bc64171dd99a8ac0acc67bfa408f600",
        "sibling": "0xd4bbd1bcd3b00b743d57005fd62af4e0df6c021c92288e1bf5ede810b09c590a",
        "node_type": 4
      },
      "path": [
        {
          "value": "0x588ed0bd87bffa44e23f0842666d0884bbfb882c9423b216caf73211ab5cdc03",
          "sibling": "0x233ebad9cd643db2577e9a70c76a24705fc5e4f3b450c3bdcab4b7162a1e7012",
          "node_type": 9
        },
        {
          "value": "0xbd78042c295097e3e5105483f361c663aec5827d3bd66a7e7651ba9453b24414",
          "sibling": "0xf0691fb03392278193e2b56be466d7c6ce4e11e9095cc4a5e5f3bc2dfa96df20",
          "node_type": 9
        },
        {
          "value": "0x992cc9c028bb8b94dd8e81f8457618f9db67d76284cea3cc0989b4afbefe2e1a",
          "sibling": "0x3e284a214b6cc48e7efb52245561b1341d66871759eff8a4c6651abb9885f005",
          "node_type": 9
        },
        {
          "value": "0xbfac6f01d0f8f2f32bd5c7a6c9c74a44f6a48df0bb8d2fde126feac487209f23",
          "sibling": "0xf20a556d831214034d26d72d4298b438082aeea33d871201a38432b243adc628",
          "node_type": 9
        },
        {
          "value": "0xc6f68f9dcb9ede21466846e4fd907298de88431525a39c8d35a9f15d49e81f1f",
          "sibling": "0x0000000000000000000000000000000000000000000000000000000000000000",
          "node_type": 7
        },
        {
          "value": "0x70063bdea0ed4a911f714843e09cbb626727deae7cebbd78a5d693f5249a8407",
          "sibling": "0xff54e4d29e6dcde6784ec1cdacbd6a30092719795f45f08a50e7514d0ed09a1e",
          "node_type": 6
        }
      ],
      "pathPart": "0x14"
    }
  ],
  "stateKey": "0xd4bbd1bcd3b00b743d57005fd62af4e0df6c021c92288e1bf5ede810b09c590a",
  "stateUpdate": [
    {
      "key": "0x0000000000000000000000000000000000000000000000000000000001653e61",
      "value": "0x0000000000000000000000000000000000000000000000000000000000000000"
    },
    {
      "key": "0x0000000000000000000000000000000000000000000000000000000001653e61",
      "value": "0x0000000000000000000000000000000000000000000000000000000000000133"
    }
  ]
}
"#

theorem file_empty_storage_type_1_update_a : SameFile text_empty_storage_type_1_update_a empty_storage_type_1_update_a :=
  sameFile_of 3 3 4 20 _ _ (by decide +kernel) (by decide +kernel)

/-- /repo/src/traces/empty_storage_type_1_update_b.json, lines 1-169. -/
def text_empty_storage_type_1_update_b : Text := utf8% r#"{
  "address": "0x0101010101010101010101010101010101010101",
  "accountKey": "0x2368fc91ec42cf498e51d1796cfcacf1efb26920e114962fb9c4763b1080341d",
  "accountPath": [
    {
      "root": "0xb696019bc06c70a975c602aa0d7a1fa25c04e18cf48d7b4ead1ad980481d6616",
      "leaf": {
        "value": "0xd472374b1135b67ffc1d5414460fe3b4efaf31ce9ae4c83d1364ba87a9472a2c",
        "sibling": "0x2368fc91ec42cf498e51d1796cfcacf1efb26920e114962fb9c4763b1080341d",
        "node_type": 4
      },
      "path": [
        {
          "value": "0xa8ba04fc659bc821c6dbc1f6775dcb9e83dd215a1943c6a6c5375bdb65498b24",
          "sibling": "0xa66d39d51412f50d7df0c6388c765c74b023a3e5d9eba9cbc80b6ef17f76ab1e",
          "node_type": 9
        },
        {
          "value": "0x339130a89388cf0ced2bb4f9b4e5073930e4121e16ee46e301acfcce18a3220d",
          "sibling": "0xf485d05d32be22082faed55e8c38826fec4a8250f41ce4639d51fb249c322127",
          "node_type": 9
        },
        {
          "value": "0x1488ae111aac349974efc97e73fc7415540a43249af5155997dbb0c2f22fc201",
          "sibling": "0xebb8b01466f6764df4b8b2a3d180b849b9616c536c0a4b6f107e3b10a739761e",
          "node_type": 6
        }
      ],
      "pathPart": "0x3"
    },
    {
      "root": "0x6c38c8de8bea480ef70ec2857ec2b02d756dcdfc0e253583e418a39b6e41cb08",
      "leaf": {
        "value": "0x006a1519d7385d14cd2ee1fbb9244538d87881fc21f4aa0bcaaa9727573acd21",
        "sibling": "0x2368fc91ec42cf498e51d1796cfcacf1efb26920e114962fb9c4763b1080341d",
        "node_type": 4
      },
      "path": [
        {
          "value": "0x54642d6c934cf174fd3a9a31ddd9cd362cda12dfb8672326ca64f397a4021321",
          "sibling": "0xa66d39d51412f50d7df0c6388c765c74b023a3e5d9eba9cbc80b6ef17f76ab1e",
          "node_type": 9
        },
        {
          "value": "0x0436b0eb300b841ff31899d3b7bbddfe5c8ca6c4bca9107492ebd2191b5c5828",
          "sibling": "0xf485d05d32be22082faed55e8c38826fec4a8250f41ce4639d51fb249c322127",
          "node_type": 9
        },
        {
          "value": "0xaa892597b4515a5f8561996f9cc44546d549234717b4216c5c64baa60b3b9f11",
          "sibling": "0xebb8b01466f6764df4b8b2a3d180b849b9616c536c0a4b6f107e3b10a739761e",
          "node_type": 6
        }
      ],
      "pathPart": "0x3"
    }
  ],
  "accountUpdate": [
    {
      "nonce": 0,
      "balance": "0x1",
      "codeHash": "0x0000000000000000000000000000000000000000000000000000000000000000",
      "poseidonCodeHash": "0x0000000000000000000000000000000000000000000000000000000000000000",
      "codeSize": 0
    },
    {
      "nonce": 0,
      "balance": "0x1",
      "codeHash": "0x0000000000000000000000000000000000000000000000000000000000000000",
      "poseidonCodeHash": "0x0000000000000000000000000000000000000000000000000000000000000000",
      "codeSize": 0
    }
  ],
  "statePath": [
    {
      "root": "0x9f8447ba78ad7e1c7566d9242c8c6d77f02dfe081717cb0a1fe024485735290e",
      "leaf": {
        "value": "0x50ea2e5d1d10a9ebc255098ff2670e4a4faaa8018a07eb92340063dea69b0426",
        "sibling": "0x9044c8b6fcf025b005c278f6f154d7cba8c4603e9e597062c7b271a3c4496817",
        "node_type": 4
      },
      "path": [
        {
          "value": "0xf4d5d6e3ae2e36f7a099a2a7ed72432b173f3211c0c2b4d4e10e023030428829",
          "sibling": "0x233ebad9cd643db2577e9a70c76a24705fc5e4f3b450c3bdcab4b7162a1e7012",
          "node_type": 9
        },
        {
          "value": "0x5d1276a69a4026e4fef7bcaf66a6a11282ec2a1607f2b245b8acb8fc9bd08927",
          "sibling": "0xf0691fb03392278193e2b56be466d7c6ce4e11e9095cc4a5e5f3bc2dfa96df20",
          "node_type": 9
        },
        {
          "value": "0x3e284a214b6cc48e7efb52245561b1341d66871759eff8a4c6651abb9885f005",
          "sibling": "0xd544f1089502952ca7f9a7c7a36e673ffe940269b1db269cfa325683bc580c28",
          "node_type": 9
        },
        {
          "value": "0x732b296b79456bb32d998aa557d9335f3a847412aad9b2cd4af86a103c333603",
          "sibling": "0x0000000000000000000000000000000000000000000000000000000000000000",
          "node_type": 8
        },
        {
          "value": "0x0d68bfd900eefa2da50c92edbadb07b55d8b47377b79fe0c4e81c0ad432e7517",
          "sibling": "0x390c14944e6a7e0b36d897675cd4ecec16ebd5629b2f9c4979262f32dcae6915",
          "node_type": 8
        }
      ],
      "pathPart": "0x10"
    },
    {
      "root": "0x07417bd293ebf64ba5aef2c9935f515af0f04cef28976dbf74e37a017c2f6a2d",
      "leaf": {
        "value": "0xbf4245864783af356463b2c5af200bb87bc64171dd99a8ac0acc67bfa408f600",
        "sibling": "0x50ea2e5d1d10a9ebc255098ff2670e4a4faaa8018a07eb92340063dea69b0426",
        "node_type": 4
      },
      "path": [
        {
          "value": "0x67b79477297dfba8ab91ed5db6e9c410be0ca3a5995359fcc4e4f499a3246300",
          "sibling": "0x233ebad9cd643db2577e9a70c76a24705fc5e4f3b450c3bdcab4b7162a1e7012",
          "node_type": 9
        },
        {
          "value": "0x9982dc7769358bd94d2fbf8835bb7f39d681ac3aea293d9ff359d8dd5f238e1e",
          "sibling": "0xf0691fb03392278193e2b56be466d7c6ce4e11e9095cc4a5e5f3bc2dfa96df20",
          "node_type": 9
        },
        {
          "value": "0xb58bdec478b90d340305a2b03e6c45960ddff6ce3a4e25eb6fb2d25bf20ace12",
          "sibling": "0xd544f1089502952ca7f9a7c7a36e673ffe940269b1db269cfa325683bc580c28",
          "node_type": 9
        },
        {
          "value": "0xb5d0c825b78df3062a1bbe96527074610286568e2b0e4661dfd752a220420b03",
          "sibling": "0x0000000000000000000000000000000000000000000000000000000000000000",
          "node_type": 8
        },
        {
          "value": "0xe175e7ee923b9ce62cd3c2e462a2f67e43ab9ebbaf9d42030e67e9d133fe512f",
          "sibling": "0x390c14944e6a7e0b36d897675cd4ecec16ebd5629b2f9c4979262f32dcae6915",
          "node_type": 9
        },
        {
          "value": "0xaf7efe4bdfcdb6dc0d89fdf6ffe58028167ea9104c51e3814c613d5dc108b50e",
          "sibling": "0x0000000000000000000000000000000000000000000000000000000000000000",
          "node_type": 8
        },
        {
          "value": "0x880915c46ba6c99ad943046fea16ea056c3d3112150a07c88b6640e5299a6805",
          "sibling": "0x0d68bfd900eefa2da50c92edbadb07b55d8b47377b79fe0c4e81c0ad432e7517",
          "node_type": 6
        }
      ],
      "pathPart": "0x50"
    }
  ],
  "stateKey": "0x50ea2e5d1d10a9ebc255098ff2670e4a4faaa8018a07eb92340063dea69b0426",
  "stateUpdate": [
    {
      "key": "0x0000000000000000000000000000000000000000000000000000000000000001",
      "value": "0x0000000000000000000000000000000000000000000000000000000000000000"
    },
    {
      "key": "0x0000000000000000000000000000000000000000000000000000000000000001",
      "value": "0x0000000000000000000000000000000000000000000000000000000000000133"
    }
  ]
}
"#

theorem file_empty_storage_type_1_update_b : SameFile text_empty_storage_type_1_update_b empty_storage_type_1_update_b :=
  sameFile_of 3 3 16 80 _ _ (by decide +kernel) (by decide +kernel)

/-- /repo/src/traces/empty_storage_type_1_update_c.json, lines 1-144. -/
def text_empty_storage_type_1_update_c : Text := utf8% r#"{
  "address": "0x0101010101010101010101010101010101010101",
  "accountKey": "0x2368fc91ec42cf498e51d1796cfcacf1efb26920e114962fb9c4763b1080341d",
  "accountPath": [
    {
      "root": "0xb696019bc06c70a975c602aa0d7a1fa25c04e18cf48d7b4ead1ad980481d6616",
      "leaf": {
        "value": "0xd472374b1135b67ffc1d5414460fe3b4efaf31ce9ae4c83d1364ba87a9472a2c",
        "sibling": "0x2368fc91ec42cf498e51d1796cfcacf1efb26920e114962fb9c4763b1080341d",
        "node_type": 4
      },
      "path": [
        {
          "value": "0xa8ba04fc659bc821c6dbc1f6775dcb9e83dd215a1943c6a6c5375bdb65498b24",
          "sibling": "0xa66d39d51412f50d7df0c6388c765c74b023a3e5d9eba9cbc80b6ef17f76ab1e",
          "node_type": 9
        },
        {
          "value": "0x339130a89388cf0ced2bb4f9b4e5073930e4121e16ee46e301acfcce18a3220d",
          "sibling": "0xf485d05d32be22082faed55e8c38826fec4a8250f41ce4639d51fb249c322127",
          "node_type": 9
        },
        {
          "value": "0x1488ae111aac349974efc97e73fc7415540a43249af5155997dbb0c2f22fc201",
          "sibling": "0xebb8b01466f6764df4b8b2a3d180b849b9616c536c0a4b6f107e3b10a739761e",
          "node_type": 6
        }
      ],
      "pathPart": "0x3"
    },
    {
      "root": "0xce4173f31ef0012e08c88e1b6c5ca0bfa2fa4fbb83c6321050ec23629eeab710",
      "leaf": {
        "value": "0xd2d01beada4773f453ea5c55274eb25b5bb6d392c3140a0daa63065b2d601d01",
        "sibling": "0x2368fc91ec42cf498e51d1796cfcacf1efb26920e114962fb9c4763b1080341d",
        "node_type": 4
      },
      "path": [
        {
          "value": "0x34c4cf2a144557fc872c5789e62836fc1c99080a09a5757d0355cba44cdf7914",
          "sibling": "0xa66d39d51412f50d7df0c6388c765c74b023a3e5d9eba9cbc80b6ef17f76ab1e",
          "node_type": 9
        },
        {
          "value": "0x401a87991073a13293e8add521220ba66fda87152d2e010d4bd03d3be6f3af1f",
          "sibling": "0xf485d05d32be22082faed55e8c38826fec4a8250f41ce4639d51fb249c322127",
          "node_type": 9
        },
        {
          "value": "0xdc15ac9869d9fbff4002a4a2f7b78d6fb349736fa5c5838998fab0b0a9833e21",
          "sibling": "0xebb8b01466f6764df4b8b2a3d180b849b9616c536c0a4b6f107e3b10a739761e",
          "node_type": 6
        }
      ],
      "pathPart": "0x3"
    }
  ],
  "accountUpdate": [
    {
      "nonce": 0,
      "balance": "0x1",
      "codeHash": "0x0000000000000000000000000000000000000000000000000000000000000000",
      "poseidonCodeHash": "0x0000000000000000000000000000000000000000000000000000000000000000",
      "codeSize": 0
    },
    {
      "nonce": 0,
      "balance": "0x1",
      "codeHash": "0x0000000000000000000000000000000000000000000000000000000000000000",
      "poseidonCodeHash": "0x0000000000000000000000000000000000000000000000000000000000000000",
      "codeSize": 0
    }
  ],
  "statePath": [
    {
      "root": "0x9f8447ba78ad7e1c7566d9242c8c6d77f02dfe081717cb0a1fe024485735290e",
      "leaf": {
        "value": "0x50ea2e5d1d10a9ebc255098ff2670e4a4faaa8018a07eb92340063dea69b0426",
        "sibling": "0x630fe719918f65244b259027991431bc0fde4bd0aad4bf82b7f4e022b20cff12",
        "node_type": 4
      },
      "path": [
        {
          "value": "0x233ebad9cd643db2577e9a70c76a24705fc5e4f3b450c3bdcab4b7162a1e7012",
          "sibling": "0xf4d5d6e3ae2e36f7a099a2a7ed72432b173f3211c0c2b4d4e10e023030428829",
          "node_type": 9
        },
        {
          "value": "0x720c52d0a1382db2c1c8d60502578d5497139182e5b52988ca96a2e2cb5ed81b",
          "sibling": "0x9594a5a6bf52685e0fbfbc9b10d02baa4525837fe7774cbe86ab5b96dd15ee0d",
          "node_type": 9
        },
        {
          "value": "0x59a07d6de141c8de3c5ac71197eba1b9a6de322e3b0f9762351108fa121a5917",
          "sibling": "0x363041ad41f0ee8819046ee2bf2af41bc94cd17bc7ba6ca712cc562d90460d19",
          "node_type": 6
        }
      ],
      "pathPart": "0x3"
    },
    {
      "root": "0x18e44caa78a914087fb81e8b2f92a312f29b10a94e857b3382ba000aac3b050f",
      "leaf": {
        "value": "0xbf4245864783af356463b2c5af200bb87bc64171dd99a8ac0acc67bfa408f600",
        "sibling": "0xebbde6853f0d7fd5c795a751c763ee866f603ddd45a59a14ad1189f04105c506",
        "node_type": 4
      },
      "path": [
        {
          "value": "0xf43f6817ec5d6bb0e0b42c4ba5264bb99096cfe99ece2ea7b15acc4e564d322d",
          "sibling": "0xf4d5d6e3ae2e36f7a099a2a7ed72432b173f3211c0c2b4d4e10e023030428829",
          "node_type": 9
        },
        {
          "value": "0xa75741eac4c581fb3eec3358254af17c0014077e86cb926f448f3607a48ee40d",
          "sibling": "0x9594a5a6bf52685e0fbfbc9b10d02baa4525837fe7774cbe86ab5b96dd15ee0d",
          "node_type": 9
        },
        {
          "value": "0x1a2d6c63254ba1b0e860c99dedf9a3a1038e7dc589fd9a92b5d2eff7cd609c2a",
          "sibling": "0x363041ad41f0ee8819046ee2bf2af41bc94cd17bc7ba6ca712cc562d90460d19",
          "node_type": 8
        },
        {
          "value": "0x345706989a0657a16b5c14414657b429c857f9cc0ce0be40174c12c214a9061e",
          "sibling": "0x59a07d6de141c8de3c5ac71197eba1b9a6de322e3b0f9762351108fa121a5917",
          "node_type": 6
        }
      ],
      "pathPart": "0xb"
    }
  ],
  "stateKey": "0xebbde6853f0d7fd5c795a751c763ee866f603ddd45a59a14ad1189f04105c506",
  "stateUpdate": [
    {
      "key": "0x0000000000000000000000000000000000000000000000000000000000000003",
      "value": "0x0000000000000000000000000000000000000000000000000000000000000000"
    },
    {
      "key": "0x0000000000000000000000000000000000000000000000000000000000000003",
      "value": "0x0000000000000000000000000000000000000000000000000000000000000133"
    }
  ]
}
"#

theorem file_empty_storage_type_1_update_c : SameFile text_empty_storage_type_1_update_c empty_storage_type_1_update_c :=
  sameFile_of 3 3 3 11 _ _ (by decide +kernel) (by decide +kernel)

end Mpt.Fixtures
