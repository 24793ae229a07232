import Verif.Vectors.MerkleEval

/-!
# Published vectors for the note commitment tree

Vectors of `/repo/src/test_vectors/merkle_path.rs` and of `/repo/src/tree.rs:352-400`.  An array of 32 bytes is written as
the number it encodes, least significant byte first.  These are checks of the model against published data, not
properties.
-/

namespace Orchard.Vectors

/-- `test_vectors/merkle_path.rs:10-452`. -/
def merkle0 : MerkleVector where
  leaves := [0xdf89ad556370877d4f76a993d20c7e81393fdb51d55d7a8f5621d6ad566c13d,
    0x2,
    0x2,
    0x2,
    0x2,
    0x2,
    0x2,
    0x2,
    0x2,
    0x2,
    0x2,
    0x2,
    0x2,
    0x2,
    0x2,
    0x2]
  paths := [[0x2,
      0x11f4976cde2d797fccb9514e3858c906cbbd9f5e520f003c71c209c80725abd1,
      0x30d056957683dfe0c3e289ea1c2304b19b5c09c17cabbb3a0464cd14463f41c7,
      0x44279ac8f3c57b2aa1638aca9d27eda6a7df26d8174ec50fde5537739fc1121],
    [0xdf89ad556370877d4f76a993d20c7e81393fdb51d55d7a8f5621d6ad566c13d,
      0x11f4976cde2d797fccb9514e3858c906cbbd9f5e520f003c71c209c80725abd1,
      0x30d056957683dfe0c3e289ea1c2304b19b5c09c17cabbb3a0464cd14463f41c7,
      0x44279ac8f3c57b2aa1638aca9d27eda6a7df26d8174ec50fde5537739fc1121],
    [0x2,
      0x20e046e1de7bcefb6cf8578ee02d5862296a3d60b14f5f24b3334950461e9df7,
      0x30d056957683dfe0c3e289ea1c2304b19b5c09c17cabbb3a0464cd14463f41c7,
      0x44279ac8f3c57b2aa1638aca9d27eda6a7df26d8174ec50fde5537739fc1121],
    [0x2,
      0x20e046e1de7bcefb6cf8578ee02d5862296a3d60b14f5f24b3334950461e9df7,
      0x30d056957683dfe0c3e289ea1c2304b19b5c09c17cabbb3a0464cd14463f41c7,
      0x44279ac8f3c57b2aa1638aca9d27eda6a7df26d8174ec50fde5537739fc1121],
    [0x2,
      0x11f4976cde2d797fccb9514e3858c906cbbd9f5e520f003c71c209c80725abd1,
      0x1c06553d2931d397c846af848358624c0d1e99b2286093cbe1a6692c1891d39e,
      0x44279ac8f3c57b2aa1638aca9d27eda6a7df26d8174ec50fde5537739fc1121],
    [0x2,
      0x11f4976cde2d797fccb9514e3858c906cbbd9f5e520f003c71c209c80725abd1,
      0x1c06553d2931d397c846af848358624c0d1e99b2286093cbe1a6692c1891d39e,
      0x44279ac8f3c57b2aa1638aca9d27eda6a7df26d8174ec50fde5537739fc1121],
    [0x2,
      0x11f4976cde2d797fccb9514e3858c906cbbd9f5e520f003c71c209c80725abd1,
      0x1c06553d2931d397c846af848358624c0d1e99b2286093cbe1a6692c1891d39e,
      0x44279ac8f3c57b2aa1638aca9d27eda6a7df26d8174ec50fde5537739fc1121],
    [0x2,
      0x11f4976cde2d797fccb9514e3858c906cbbd9f5e520f003c71c209c80725abd1,
      0x1c06553d2931d397c846af848358624c0d1e99b2286093cbe1a6692c1891d39e,
      0x44279ac8f3c57b2aa1638aca9d27eda6a7df26d8174ec50fde5537739fc1121],
    [0x2,
      0x11f4976cde2d797fccb9514e3858c906cbbd9f5e520f003c71c209c80725abd1,
      0x30d056957683dfe0c3e289ea1c2304b19b5c09c17cabbb3a0464cd14463f41c7,
      0x2d2fab1471087e61718ea3b39a747e1b0be66d364dbc0e9620f8cb4a94744b6e],
    [0x2,
      0x11f4976cde2d797fccb9514e3858c906cbbd9f5e520f003c71c209c80725abd1,
      0x30d056957683dfe0c3e289ea1c2304b19b5c09c17cabbb3a0464cd14463f41c7,
      0x2d2fab1471087e61718ea3b39a747e1b0be66d364dbc0e9620f8cb4a94744b6e],
    [0x2,
      0x11f4976cde2d797fccb9514e3858c906cbbd9f5e520f003c71c209c80725abd1,
      0x30d056957683dfe0c3e289ea1c2304b19b5c09c17cabbb3a0464cd14463f41c7,
      0x2d2fab1471087e61718ea3b39a747e1b0be66d364dbc0e9620f8cb4a94744b6e],
    [0x2,
      0x11f4976cde2d797fccb9514e3858c906cbbd9f5e520f003c71c209c80725abd1,
      0x30d056957683dfe0c3e289ea1c2304b19b5c09c17cabbb3a0464cd14463f41c7,
      0x2d2fab1471087e61718ea3b39a747e1b0be66d364dbc0e9620f8cb4a94744b6e],
    [0x2,
      0x11f4976cde2d797fccb9514e3858c906cbbd9f5e520f003c71c209c80725abd1,
      0x30d056957683dfe0c3e289ea1c2304b19b5c09c17cabbb3a0464cd14463f41c7,
      0x2d2fab1471087e61718ea3b39a747e1b0be66d364dbc0e9620f8cb4a94744b6e],
    [0x2,
      0x11f4976cde2d797fccb9514e3858c906cbbd9f5e520f003c71c209c80725abd1,
      0x30d056957683dfe0c3e289ea1c2304b19b5c09c17cabbb3a0464cd14463f41c7,
      0x2d2fab1471087e61718ea3b39a747e1b0be66d364dbc0e9620f8cb4a94744b6e],
    [0x2,
      0x11f4976cde2d797fccb9514e3858c906cbbd9f5e520f003c71c209c80725abd1,
      0x30d056957683dfe0c3e289ea1c2304b19b5c09c17cabbb3a0464cd14463f41c7,
      0x2d2fab1471087e61718ea3b39a747e1b0be66d364dbc0e9620f8cb4a94744b6e],
    [0x2,
      0x11f4976cde2d797fccb9514e3858c906cbbd9f5e520f003c71c209c80725abd1,
      0x30d056957683dfe0c3e289ea1c2304b19b5c09c17cabbb3a0464cd14463f41c7,
      0x2d2fab1471087e61718ea3b39a747e1b0be66d364dbc0e9620f8cb4a94744b6e]]
  root := 0xd613c69bfed58c96f6197e54e7f8d17fc96bd9dc6c26efdcc2ecaaea64c0c40

/-- `test_vectors/merkle_path.rs:453-895`. -/
def merkle1 : MerkleVector where
  leaves := [0xdf89ad556370877d4f76a993d20c7e81393fdb51d55d7a8f5621d6ad566c13d,
    0x3c3d90941de0381afbd58755031ab0e9e1c2ef575a3dfade311eba7f2f225c49,
    0x2,
    0x2,
    0x2,
    0x2,
    0x2,
    0x2,
    0x2,
    0x2,
    0x2,
    0x2,
    0x2,
    0x2,
    0x2,
    0x2]
  paths := [[0x3c3d90941de0381afbd58755031ab0e9e1c2ef575a3dfade311eba7f2f225c49,
      0x11f4976cde2d797fccb9514e3858c906cbbd9f5e520f003c71c209c80725abd1,
      0x30d056957683dfe0c3e289ea1c2304b19b5c09c17cabbb3a0464cd14463f41c7,
      0x44279ac8f3c57b2aa1638aca9d27eda6a7df26d8174ec50fde5537739fc1121],
    [0xdf89ad556370877d4f76a993d20c7e81393fdb51d55d7a8f5621d6ad566c13d,
      0x11f4976cde2d797fccb9514e3858c906cbbd9f5e520f003c71c209c80725abd1,
      0x30d056957683dfe0c3e289ea1c2304b19b5c09c17cabbb3a0464cd14463f41c7,
      0x44279ac8f3c57b2aa1638aca9d27eda6a7df26d8174ec50fde5537739fc1121],
    [0x2,
      0x41659a0354b30ce61cffb6ec1555d04285f0b9e38d3cabb958c92200aa0c300,
      0x30d056957683dfe0c3e289ea1c2304b19b5c09c17cabbb3a0464cd14463f41c7,
      0x44279ac8f3c57b2aa1638aca9d27eda6a7df26d8174ec50fde5537739fc1121],
    [0x2,
      0x41659a0354b30ce61cffb6ec1555d04285f0b9e38d3cabb958c92200aa0c300,
      0x30d056957683dfe0c3e289ea1c2304b19b5c09c17cabbb3a0464cd14463f41c7,
      0x44279ac8f3c57b2aa1638aca9d27eda6a7df26d8174ec50fde5537739fc1121],
    [0x2,
      0x11f4976cde2d797fccb9514e3858c906cbbd9f5e520f003c71c209c80725abd1,
      0x1174fcdf3a4b593308c13861bae2e3376221caac8d6993a477d2a0e8a310a210,
      0x44279ac8f3c57b2aa1638aca9d27eda6a7df26d8174ec50fde5537739fc1121],
    [0x2,
      0x11f4976cde2d797fccb9514e3858c906cbbd9f5e520f003c71c209c80725abd1,
      0x1174fcdf3a4b593308c13861bae2e3376221caac8d6993a477d2a0e8a310a210,
      0x44279ac8f3c57b2aa1638aca9d27eda6a7df26d8174ec50fde5537739fc1121],
    [0x2,
      0x11f4976cde2d797fccb9514e3858c906cbbd9f5e520f003c71c209c80725abd1,
      0x1174fcdf3a4b593308c13861bae2e3376221caac8d6993a477d2a0e8a310a210,
      0x44279ac8f3c57b2aa1638aca9d27eda6a7df26d8174ec50fde5537739fc1121],
    [0x2,
      0x11f4976cde2d797fccb9514e3858c906cbbd9f5e520f003c71c209c80725abd1,
      0x1174fcdf3a4b593308c13861bae2e3376221caac8d6993a477d2a0e8a310a210,
      0x44279ac8f3c57b2aa1638aca9d27eda6a7df26d8174ec50fde5537739fc1121],
    [0x2,
      0x11f4976cde2d797fccb9514e3858c906cbbd9f5e520f003c71c209c80725abd1,
      0x30d056957683dfe0c3e289ea1c2304b19b5c09c17cabbb3a0464cd14463f41c7,
      0x2e02eb04878e092621649895b2ecc74ad51fedf5d98510eb09bf30892c179159],
    [0x2,
      0x11f4976cde2d797fccb9514e3858c906cbbd9f5e520f003c71c209c80725abd1,
      0x30d056957683dfe0c3e289ea1c2304b19b5c09c17cabbb3a0464cd14463f41c7,
      0x2e02eb04878e092621649895b2ecc74ad51fedf5d98510eb09bf30892c179159],
    [0x2,
      0x11f4976cde2d797fccb9514e3858c906cbbd9f5e520f003c71c209c80725abd1,
      0x30d056957683dfe0c3e289ea1c2304b19b5c09c17cabbb3a0464cd14463f41c7,
      0x2e02eb04878e092621649895b2ecc74ad51fedf5d98510eb09bf30892c179159],
    [0x2,
      0x11f4976cde2d797fccb9514e3858c906cbbd9f5e520f003c71c209c80725abd1,
      0x30d056957683dfe0c3e289ea1c2304b19b5c09c17cabbb3a0464cd14463f41c7,
      0x2e02eb04878e092621649895b2ecc74ad51fedf5d98510eb09bf30892c179159],
    [0x2,
      0x11f4976cde2d797fccb9514e3858c906cbbd9f5e520f003c71c209c80725abd1,
      0x30d056957683dfe0c3e289ea1c2304b19b5c09c17cabbb3a0464cd14463f41c7,
      0x2e02eb04878e092621649895b2ecc74ad51fedf5d98510eb09bf30892c179159],
    [0x2,
      0x11f4976cde2d797fccb9514e3858c906cbbd9f5e520f003c71c209c80725abd1,
      0x30d056957683dfe0c3e289ea1c2304b19b5c09c17cabbb3a0464cd14463f41c7,
      0x2e02eb04878e092621649895b2ecc74ad51fedf5d98510eb09bf30892c179159],
    [0x2,
      0x11f4976cde2d797fccb9514e3858c906cbbd9f5e520f003c71c209c80725abd1,
      0x30d056957683dfe0c3e289ea1c2304b19b5c09c17cabbb3a0464cd14463f41c7,
      0x2e02eb04878e092621649895b2ecc74ad51fedf5d98510eb09bf30892c179159],
    [0x2,
      0x11f4976cde2d797fccb9514e3858c906cbbd9f5e520f003c71c209c80725abd1,
      0x30d056957683dfe0c3e289ea1c2304b19b5c09c17cabbb3a0464cd14463f41c7,
      0x2e02eb04878e092621649895b2ecc74ad51fedf5d98510eb09bf30892c179159]]
  root := 0x288363cd10b9f0f2adca43ad370d3e547883ffd80588934cc2ce449bffe4bd5e

/-- `test_vectors/merkle_path.rs:896-1338`. -/
def merkle2 : MerkleVector where
  leaves := [0xdf89ad556370877d4f76a993d20c7e81393fdb51d55d7a8f5621d6ad566c13d,
    0x3c3d90941de0381afbd58755031ab0e9e1c2ef575a3dfade311eba7f2f225c49,
    0x8a068f473f4b432ac976676b3f2fe293ee50f795e53798b097146eb155388e2,
    0x2,
    0x2,
    0x2,
    0x2,
    0x2,
    0x2,
    0x2,
    0x2,
    0x2,
    0x2,
    0x2,
    0x2,
    0x2]
  paths := [[0x3c3d90941de0381afbd58755031ab0e9e1c2ef575a3dfade311eba7f2f225c49,
      0x37bf60ed5183429f24be79a41a90483bee8f11101b27f53116dfa295e761eef9,
      0x30d056957683dfe0c3e289ea1c2304b19b5c09c17cabbb3a0464cd14463f41c7,
      0x44279ac8f3c57b2aa1638aca9d27eda6a7df26d8174ec50fde5537739fc1121],
    [0xdf89ad556370877d4f76a993d20c7e81393fdb51d55d7a8f5621d6ad566c13d,
      0x37bf60ed5183429f24be79a41a90483bee8f11101b27f53116dfa295e761eef9,
      0x30d056957683dfe0c3e289ea1c2304b19b5c09c17cabbb3a0464cd14463f41c7,
      0x44279ac8f3c57b2aa1638aca9d27eda6a7df26d8174ec50fde5537739fc1121],
    [0x2,
      0x41659a0354b30ce61cffb6ec1555d04285f0b9e38d3cabb958c92200aa0c300,
      0x30d056957683dfe0c3e289ea1c2304b19b5c09c17cabbb3a0464cd14463f41c7,
      0x44279ac8f3c57b2aa1638aca9d27eda6a7df26d8174ec50fde5537739fc1121],
    [0x8a068f473f4b432ac976676b3f2fe293ee50f795e53798b097146eb155388e2,
      0x41659a0354b30ce61cffb6ec1555d04285f0b9e38d3cabb958c92200aa0c300,
      0x30d056957683dfe0c3e289ea1c2304b19b5c09c17cabbb3a0464cd14463f41c7,
      0x44279ac8f3c57b2aa1638aca9d27eda6a7df26d8174ec50fde5537739fc1121],
    [0x2,
      0x11f4976cde2d797fccb9514e3858c906cbbd9f5e520f003c71c209c80725abd1,
      0x36ab2c23e504d60b6c75b0eed15ed7d2eaefd23b930f96c5152d3f61d8646d8,
      0x44279ac8f3c57b2aa1638aca9d27eda6a7df26d8174ec50fde5537739fc1121],
    [0x2,
      0x11f4976cde2d797fccb9514e3858c906cbbd9f5e520f003c71c209c80725abd1,
      0x36ab2c23e504d60b6c75b0eed15ed7d2eaefd23b930f96c5152d3f61d8646d8,
      0x44279ac8f3c57b2aa1638aca9d27eda6a7df26d8174ec50fde5537739fc1121],
    [0x2,
      0x11f4976cde2d797fccb9514e3858c906cbbd9f5e520f003c71c209c80725abd1,
      0x36ab2c23e504d60b6c75b0eed15ed7d2eaefd23b930f96c5152d3f61d8646d8,
      0x44279ac8f3c57b2aa1638aca9d27eda6a7df26d8174ec50fde5537739fc1121],
    [0x2,
      0x11f4976cde2d797fccb9514e3858c906cbbd9f5e520f003c71c209c80725abd1,
      0x36ab2c23e504d60b6c75b0eed15ed7d2eaefd23b930f96c5152d3f61d8646d8,
      0x44279ac8f3c57b2aa1638aca9d27eda6a7df26d8174ec50fde5537739fc1121],
    [0x2,
      0x11f4976cde2d797fccb9514e3858c906cbbd9f5e520f003c71c209c80725abd1,
      0x30d056957683dfe0c3e289ea1c2304b19b5c09c17cabbb3a0464cd14463f41c7,
      0x13bd42e59554ac00f8f0453952688e45106ce3811f4d56e406a5f647e4843b95],
    [0x2,
      0x11f4976cde2d797fccb9514e3858c906cbbd9f5e520f003c71c209c80725abd1,
      0x30d056957683dfe0c3e289ea1c2304b19b5c09c17cabbb3a0464cd14463f41c7,
      0x13bd42e59554ac00f8f0453952688e45106ce3811f4d56e406a5f647e4843b95],
    [0x2,
      0x11f4976cde2d797fccb9514e3858c906cbbd9f5e520f003c71c209c80725abd1,
      0x30d056957683dfe0c3e289ea1c2304b19b5c09c17cabbb3a0464cd14463f41c7,
      0x13bd42e59554ac00f8f0453952688e45106ce3811f4d56e406a5f647e4843b95],
    [0x2,
      0x11f4976cde2d797fccb9514e3858c906cbbd9f5e520f003c71c209c80725abd1,
      0x30d056957683dfe0c3e289ea1c2304b19b5c09c17cabbb3a0464cd14463f41c7,
      0x13bd42e59554ac00f8f0453952688e45106ce3811f4d56e406a5f647e4843b95],
    [0x2,
      0x11f4976cde2d797fccb9514e3858c906cbbd9f5e520f003c71c209c80725abd1,
      0x30d056957683dfe0c3e289ea1c2304b19b5c09c17cabbb3a0464cd14463f41c7,
      0x13bd42e59554ac00f8f0453952688e45106ce3811f4d56e406a5f647e4843b95],
    [0x2,
      0x11f4976cde2d797fccb9514e3858c906cbbd9f5e520f003c71c209c80725abd1,
      0x30d056957683dfe0c3e289ea1c2304b19b5c09c17cabbb3a0464cd14463f41c7,
      0x13bd42e59554ac00f8f0453952688e45106ce3811f4d56e406a5f647e4843b95],
    [0x2,
      0x11f4976cde2d797fccb9514e3858c906cbbd9f5e520f003c71c209c80725abd1,
      0x30d056957683dfe0c3e289ea1c2304b19b5c09c17cabbb3a0464cd14463f41c7,
      0x13bd42e59554ac00f8f0453952688e45106ce3811f4d56e406a5f647e4843b95],
    [0x2,
      0x11f4976cde2d797fccb9514e3858c906cbbd9f5e520f003c71c209c80725abd1,
      0x30d056957683dfe0c3e289ea1c2304b19b5c09c17cabbb3a0464cd14463f41c7,
      0x13bd42e59554ac00f8f0453952688e45106ce3811f4d56e406a5f647e4843b95]]
  root := 0x4eb9efd0afcae069cce146e6e83d707381ccc4bbfe032a177b2f1e8ea2e3093

/-- `test_vectors/merkle_path.rs:1339-1781`. -/
def merkle3 : MerkleVector where
  leaves := [0xdf89ad556370877d4f76a993d20c7e81393fdb51d55d7a8f5621d6ad566c13d,
    0x3c3d90941de0381afbd58755031ab0e9e1c2ef575a3dfade311eba7f2f225c49,
    0x8a068f473f4b432ac976676b3f2fe293ee50f795e53798b097146eb155388e2,
    0x11af021ae73c8612bdedff3959747e45905ebc9625e51124c0f0b9ec3222194b,
    0x2,
    0x2,
    0x2,
    0x2,
    0x2,
    0x2,
    0x2,
    0x2,
    0x2,
    0x2,
    0x2,
    0x2]
  paths := [[0x3c3d90941de0381afbd58755031ab0e9e1c2ef575a3dfade311eba7f2f225c49,
      0x1cb7f6c331e745e76d7201cf0d417a3a9db397514074fd53576696aaa40dee11,
      0x30d056957683dfe0c3e289ea1c2304b19b5c09c17cabbb3a0464cd14463f41c7,
      0x44279ac8f3c57b2aa1638aca9d27eda6a7df26d8174ec50fde5537739fc1121],
    [0xdf89ad556370877d4f76a993d20c7e81393fdb51d55d7a8f5621d6ad566c13d,
      0x1cb7f6c331e745e76d7201cf0d417a3a9db397514074fd53576696aaa40dee11,
      0x30d056957683dfe0c3e289ea1c2304b19b5c09c17cabbb3a0464cd14463f41c7,
      0x44279ac8f3c57b2aa1638aca9d27eda6a7df26d8174ec50fde5537739fc1121],
    [0x11af021ae73c8612bdedff3959747e45905ebc9625e51124c0f0b9ec3222194b,
      0x41659a0354b30ce61cffb6ec1555d04285f0b9e38d3cabb958c92200aa0c300,
      0x30d056957683dfe0c3e289ea1c2304b19b5c09c17cabbb3a0464cd14463f41c7,
      0x44279ac8f3c57b2aa1638aca9d27eda6a7df26d8174ec50fde5537739fc1121],
    [0x8a068f473f4b432ac976676b3f2fe293ee50f795e53798b097146eb155388e2,
      0x41659a0354b30ce61cffb6ec1555d04285f0b9e38d3cabb958c92200aa0c300,
      0x30d056957683dfe0c3e289ea1c2304b19b5c09c17cabbb3a0464cd14463f41c7,
      0x44279ac8f3c57b2aa1638aca9d27eda6a7df26d8174ec50fde5537739fc1121],
    [0x2,
      0x11f4976cde2d797fccb9514e3858c906cbbd9f5e520f003c71c209c80725abd1,
      0x196987ef2b5736846a40f993d04007a576c9747081f33ad99b813cf36e1b31c9,
      0x44279ac8f3c57b2aa1638aca9d27eda6a7df26d8174ec50fde5537739fc1121],
    [0x2,
      0x11f4976cde2d797fccb9514e3858c906cbbd9f5e520f003c71c209c80725abd1,
      0x196987ef2b5736846a40f993d04007a576c9747081f33ad99b813cf36e1b31c9,
      0x44279ac8f3c57b2aa1638aca9d27eda6a7df26d8174ec50fde5537739fc1121],
    [0x2,
      0x11f4976cde2d797fccb9514e3858c906cbbd9f5e520f003c71c209c80725abd1,
      0x196987ef2b5736846a40f993d04007a576c9747081f33ad99b813cf36e1b31c9,
      0x44279ac8f3c57b2aa1638aca9d27eda6a7df26d8174ec50fde5537739fc1121],
    [0x2,
      0x11f4976cde2d797fccb9514e3858c906cbbd9f5e520f003c71c209c80725abd1,
      0x196987ef2b5736846a40f993d04007a576c9747081f33ad99b813cf36e1b31c9,
      0x44279ac8f3c57b2aa1638aca9d27eda6a7df26d8174ec50fde5537739fc1121],
    [0x2,
      0x11f4976cde2d797fccb9514e3858c906cbbd9f5e520f003c71c209c80725abd1,
      0x30d056957683dfe0c3e289ea1c2304b19b5c09c17cabbb3a0464cd14463f41c7,
      0x157effe7295e958ba6d12c275f45002b24873c336aef53675564327f598dda94],
    [0x2,
      0x11f4976cde2d797fccb9514e3858c906cbbd9f5e520f003c71c209c80725abd1,
      0x30d056957683dfe0c3e289ea1c2304b19b5c09c17cabbb3a0464cd14463f41c7,
      0x157effe7295e958ba6d12c275f45002b24873c336aef53675564327f598dda94],
    [0x2,
      0x11f4976cde2d797fccb9514e3858c906cbbd9f5e520f003c71c209c80725abd1,
      0x30d056957683dfe0c3e289ea1c2304b19b5c09c17cabbb3a0464cd14463f41c7,
      0x157effe7295e958ba6d12c275f45002b24873c336aef53675564327f598dda94],
    [0x2,
      0x11f4976cde2d797fccb9514e3858c906cbbd9f5e520f003c71c209c80725abd1,
      0x30d056957683dfe0c3e289ea1c2304b19b5c09c17cabbb3a0464cd14463f41c7,
      0x157effe7295e958ba6d12c275f45002b24873c336aef53675564327f598dda94],
    [0x2,
      0x11f4976cde2d797fccb9514e3858c906cbbd9f5e520f003c71c209c80725abd1,
      0x30d056957683dfe0c3e289ea1c2304b19b5c09c17cabbb3a0464cd14463f41c7,
      0x157effe7295e958ba6d12c275f45002b24873c336aef53675564327f598dda94],
    [0x2,
      0x11f4976cde2d797fccb9514e3858c906cbbd9f5e520f003c71c209c80725abd1,
      0x30d056957683dfe0c3e289ea1c2304b19b5c09c17cabbb3a0464cd14463f41c7,
      0x157effe7295e958ba6d12c275f45002b24873c336aef53675564327f598dda94],
    [0x2,
      0x11f4976cde2d797fccb9514e3858c906cbbd9f5e520f003c71c209c80725abd1,
      0x30d056957683dfe0c3e289ea1c2304b19b5c09c17cabbb3a0464cd14463f41c7,
      0x157effe7295e958ba6d12c275f45002b24873c336aef53675564327f598dda94],
    [0x2,
      0x11f4976cde2d797fccb9514e3858c906cbbd9f5e520f003c71c209c80725abd1,
      0x30d056957683dfe0c3e289ea1c2304b19b5c09c17cabbb3a0464cd14463f41c7,
      0x157effe7295e958ba6d12c275f45002b24873c336aef53675564327f598dda94]]
  root := 0x113959c009146e23564a53dae5f434ad80a45ec3750f0e44f97eaa56ab533397

/-- `test_vectors/merkle_path.rs:1782-2224`. -/
def merkle4 : MerkleVector where
  leaves := [0xdf89ad556370877d4f76a993d20c7e81393fdb51d55d7a8f5621d6ad566c13d,
    0x3c3d90941de0381afbd58755031ab0e9e1c2ef575a3dfade311eba7f2f225c49,
    0x8a068f473f4b432ac976676b3f2fe293ee50f795e53798b097146eb155388e2,
    0x11af021ae73c8612bdedff3959747e45905ebc9625e51124c0f0b9ec3222194b,
    0x3001daa5b88ccbce73cf5b35f3197dd1b3ca29c1bc8d0bf5389d7842465d4105,
    0x2,
    0x2,
    0x2,
    0x2,
    0x2,
    0x2,
    0x2,
    0x2,
    0x2,
    0x2,
    0x2]
  paths := [[0x3c3d90941de0381afbd58755031ab0e9e1c2ef575a3dfade311eba7f2f225c49,
      0x1cb7f6c331e745e76d7201cf0d417a3a9db397514074fd53576696aaa40dee11,
      0x3fc8835563adb81da05fcaccb0dd40ff244e350bb110af7a8c2d5723f5dbff92,
      0x44279ac8f3c57b2aa1638aca9d27eda6a7df26d8174ec50fde5537739fc1121],
    [0xdf89ad556370877d4f76a993d20c7e81393fdb51d55d7a8f5621d6ad566c13d,
      0x1cb7f6c331e745e76d7201cf0d417a3a9db397514074fd53576696aaa40dee11,
      0x3fc8835563adb81da05fcaccb0dd40ff244e350bb110af7a8c2d5723f5dbff92,
      0x44279ac8f3c57b2aa1638aca9d27eda6a7df26d8174ec50fde5537739fc1121],
    [0x11af021ae73c8612bdedff3959747e45905ebc9625e51124c0f0b9ec3222194b,
      0x41659a0354b30ce61cffb6ec1555d04285f0b9e38d3cabb958c92200aa0c300,
      0x3fc8835563adb81da05fcaccb0dd40ff244e350bb110af7a8c2d5723f5dbff92,
      0x44279ac8f3c57b2aa1638aca9d27eda6a7df26d8174ec50fde5537739fc1121],
    [0x8a068f473f4b432ac976676b3f2fe293ee50f795e53798b097146eb155388e2,
      0x41659a0354b30ce61cffb6ec1555d04285f0b9e38d3cabb958c92200aa0c300,
      0x3fc8835563adb81da05fcaccb0dd40ff244e350bb110af7a8c2d5723f5dbff92,
      0x44279ac8f3c57b2aa1638aca9d27eda6a7df26d8174ec50fde5537739fc1121],
    [0x2,
      0x11f4976cde2d797fccb9514e3858c906cbbd9f5e520f003c71c209c80725abd1,
      0x196987ef2b5736846a40f993d04007a576c9747081f33ad99b813cf36e1b31c9,
      0x44279ac8f3c57b2aa1638aca9d27eda6a7df26d8174ec50fde5537739fc1121],
    [0x3001daa5b88ccbce73cf5b35f3197dd1b3ca29c1bc8d0bf5389d7842465d4105,
      0x11f4976cde2d797fccb9514e3858c906cbbd9f5e520f003c71c209c80725abd1,
      0x196987ef2b5736846a40f993d04007a576c9747081f33ad99b813cf36e1b31c9,
      0x44279ac8f3c57b2aa1638aca9d27eda6a7df26d8174ec50fde5537739fc1121],
    [0x2,
      0xc72b1c3324a685aa03f2b9c2e2e4d587303af939ba08754050dcd1cdd555ec6,
      0x196987ef2b5736846a40f993d04007a576c9747081f33ad99b813cf36e1b31c9,
      0x44279ac8f3c57b2aa1638aca9d27eda6a7df26d8174ec50fde5537739fc1121],
    [0x2,
      0xc72b1c3324a685aa03f2b9c2e2e4d587303af939ba08754050dcd1cdd555ec6,
      0x196987ef2b5736846a40f993d04007a576c9747081f33ad99b813cf36e1b31c9,
      0x44279ac8f3c57b2aa1638aca9d27eda6a7df26d8174ec50fde5537739fc1121],
    [0x2,
      0x11f4976cde2d797fccb9514e3858c906cbbd9f5e520f003c71c209c80725abd1,
      0x30d056957683dfe0c3e289ea1c2304b19b5c09c17cabbb3a0464cd14463f41c7,
      0x687ffe42af837eb570d2de918339d3a98cd57f9a836b881c4bc689a95fe1fe5],
    [0x2,
      0x11f4976cde2d797fccb9514e3858c906cbbd9f5e520f003c71c209c80725abd1,
      0x30d056957683dfe0c3e289ea1c2304b19b5c09c17cabbb3a0464cd14463f41c7,
      0x687ffe42af837eb570d2de918339d3a98cd57f9a836b881c4bc689a95fe1fe5],
    [0x2,
      0x11f4976cde2d797fccb9514e3858c906cbbd9f5e520f003c71c209c80725abd1,
      0x30d056957683dfe0c3e289ea1c2304b19b5c09c17cabbb3a0464cd14463f41c7,
      0x687ffe42af837eb570d2de918339d3a98cd57f9a836b881c4bc689a95fe1fe5],
    [0x2,
      0x11f4976cde2d797fccb9514e3858c906cbbd9f5e520f003c71c209c80725abd1,
      0x30d056957683dfe0c3e289ea1c2304b19b5c09c17cabbb3a0464cd14463f41c7,
      0x687ffe42af837eb570d2de918339d3a98cd57f9a836b881c4bc689a95fe1fe5],
    [0x2,
      0x11f4976cde2d797fccb9514e3858c906cbbd9f5e520f003c71c209c80725abd1,
      0x30d056957683dfe0c3e289ea1c2304b19b5c09c17cabbb3a0464cd14463f41c7,
      0x687ffe42af837eb570d2de918339d3a98cd57f9a836b881c4bc689a95fe1fe5],
    [0x2,
      0x11f4976cde2d797fccb9514e3858c906cbbd9f5e520f003c71c209c80725abd1,
      0x30d056957683dfe0c3e289ea1c2304b19b5c09c17cabbb3a0464cd14463f41c7,
      0x687ffe42af837eb570d2de918339d3a98cd57f9a836b881c4bc689a95fe1fe5],
    [0x2,
      0x11f4976cde2d797fccb9514e3858c906cbbd9f5e520f003c71c209c80725abd1,
      0x30d056957683dfe0c3e289ea1c2304b19b5c09c17cabbb3a0464cd14463f41c7,
      0x687ffe42af837eb570d2de918339d3a98cd57f9a836b881c4bc689a95fe1fe5],
    [0x2,
      0x11f4976cde2d797fccb9514e3858c906cbbd9f5e520f003c71c209c80725abd1,
      0x30d056957683dfe0c3e289ea1c2304b19b5c09c17cabbb3a0464cd14463f41c7,
      0x687ffe42af837eb570d2de918339d3a98cd57f9a836b881c4bc689a95fe1fe5]]
  root := 0x3022a5a6ba3d1d67ad8d6a58266ef0e6523107ba7825dd1338916ef28dbeaf0b

/-- `test_vectors/merkle_path.rs:2225-2667`. -/
def merkle5 : MerkleVector where
  leaves := [0xdf89ad556370877d4f76a993d20c7e81393fdb51d55d7a8f5621d6ad566c13d,
    0x3c3d90941de0381afbd58755031ab0e9e1c2ef575a3dfade311eba7f2f225c49,
    0x8a068f473f4b432ac976676b3f2fe293ee50f795e53798b097146eb155388e2,
    0x11af021ae73c8612bdedff3959747e45905ebc9625e51124c0f0b9ec3222194b,
    0x3001daa5b88ccbce73cf5b35f3197dd1b3ca29c1bc8d0bf5389d7842465d4105,
    0x15d75dec41535a4f2aaaf5f7b0d44ccbc62690d382dc70265770a23639f15271,
    0x2,
    0x2,
    0x2,
    0x2,
    0x2,
    0x2,
    0x2,
    0x2,
    0x2,
    0x2]
  paths := [[0x3c3d90941de0381afbd58755031ab0e9e1c2ef575a3dfade311eba7f2f225c49,
      0x1cb7f6c331e745e76d7201cf0d417a3a9db397514074fd53576696aaa40dee11,
      0x2df1d1a589b49c9c50c118b847766675c9a3541092fbf61e8be03ba86b29860b,
      0x44279ac8f3c57b2aa1638aca9d27eda6a7df26d8174ec50fde5537739fc1121],
    [0xdf89ad556370877d4f76a993d20c7e81393fdb51d55d7a8f5621d6ad566c13d,
      0x1cb7f6c331e745e76d7201cf0d417a3a9db397514074fd53576696aaa40dee11,
      0x2df1d1a589b49c9c50c118b847766675c9a3541092fbf61e8be03ba86b29860b,
      0x44279ac8f3c57b2aa1638aca9d27eda6a7df26d8174ec50fde5537739fc1121],
    [0x11af021ae73c8612bdedff3959747e45905ebc9625e51124c0f0b9ec3222194b,
      0x41659a0354b30ce61cffb6ec1555d04285f0b9e38d3cabb958c92200aa0c300,
      0x2df1d1a589b49c9c50c118b847766675c9a3541092fbf61e8be03ba86b29860b,
      0x44279ac8f3c57b2aa1638aca9d27eda6a7df26d8174ec50fde5537739fc1121],
    [0x8a068f473f4b432ac976676b3f2fe293ee50f795e53798b097146eb155388e2,
      0x41659a0354b30ce61cffb6ec1555d04285f0b9e38d3cabb958c92200aa0c300,
      0x2df1d1a589b49c9c50c118b847766675c9a3541092fbf61e8be03ba86b29860b,
      0x44279ac8f3c57b2aa1638aca9d27eda6a7df26d8174ec50fde5537739fc1121],
    [0x15d75dec41535a4f2aaaf5f7b0d44ccbc62690d382dc70265770a23639f15271,
      0x11f4976cde2d797fccb9514e3858c906cbbd9f5e520f003c71c209c80725abd1,
      0x196987ef2b5736846a40f993d04007a576c9747081f33ad99b813cf36e1b31c9,
      0x44279ac8f3c57b2aa1638aca9d27eda6a7df26d8174ec50fde5537739fc1121],
    [0x3001daa5b88ccbce73cf5b35f3197dd1b3ca29c1bc8d0bf5389d7842465d4105,
      0x11f4976cde2d797fccb9514e3858c906cbbd9f5e520f003c71c209c80725abd1,
      0x196987ef2b5736846a40f993d04007a576c9747081f33ad99b813cf36e1b31c9,
      0x44279ac8f3c57b2aa1638aca9d27eda6a7df26d8174ec50fde5537739fc1121],
    [0x2,
      0x2dcc91c76e5e024202d60967e57fa7d6945445ebb350444e186218e0f83a0f65,
      0x196987ef2b5736846a40f993d04007a576c9747081f33ad99b813cf36e1b31c9,
      0x44279ac8f3c57b2aa1638aca9d27eda6a7df26d8174ec50fde5537739fc1121],
    [0x2,
      0x2dcc91c76e5e024202d60967e57fa7d6945445ebb350444e186218e0f83a0f65,
      0x196987ef2b5736846a40f993d04007a576c9747081f33ad99b813cf36e1b31c9,
      0x44279ac8f3c57b2aa1638aca9d27eda6a7df26d8174ec50fde5537739fc1121],
    [0x2,
      0x11f4976cde2d797fccb9514e3858c906cbbd9f5e520f003c71c209c80725abd1,
      0x30d056957683dfe0c3e289ea1c2304b19b5c09c17cabbb3a0464cd14463f41c7,
      0xb1d3c47c099254c6b9191f4b5192fca399d5a14a7a02dced4607b3dee4ab42e],
    [0x2,
      0x11f4976cde2d797fccb9514e3858c906cbbd9f5e520f003c71c209c80725abd1,
      0x30d056957683dfe0c3e289ea1c2304b19b5c09c17cabbb3a0464cd14463f41c7,
      0xb1d3c47c099254c6b9191f4b5192fca399d5a14a7a02dced4607b3dee4ab42e],
    [0x2,
      0x11f4976cde2d797fccb9514e3858c906cbbd9f5e520f003c71c209c80725abd1,
      0x30d056957683dfe0c3e289ea1c2304b19b5c09c17cabbb3a0464cd14463f41c7,
      0xb1d3c47c099254c6b9191f4b5192fca399d5a14a7a02dced4607b3dee4ab42e],
    [0x2,
      0x11f4976cde2d797fccb9514e3858c906cbbd9f5e520f003c71c209c80725abd1,
      0x30d056957683dfe0c3e289ea1c2304b19b5c09c17cabbb3a0464cd14463f41c7,
      0xb1d3c47c099254c6b9191f4b5192fca399d5a14a7a02dced4607b3dee4ab42e],
    [0x2,
      0x11f4976cde2d797fccb9514e3858c906cbbd9f5e520f003c71c209c80725abd1,
      0x30d056957683dfe0c3e289ea1c2304b19b5c09c17cabbb3a0464cd14463f41c7,
      0xb1d3c47c099254c6b9191f4b5192fca399d5a14a7a02dced4607b3dee4ab42e],
    [0x2,
      0x11f4976cde2d797fccb9514e3858c906cbbd9f5e520f003c71c209c80725abd1,
      0x30d056957683dfe0c3e289ea1c2304b19b5c09c17cabbb3a0464cd14463f41c7,
      0xb1d3c47c099254c6b9191f4b5192fca399d5a14a7a02dced4607b3dee4ab42e],
    [0x2,
      0x11f4976cde2d797fccb9514e3858c906cbbd9f5e520f003c71c209c80725abd1,
      0x30d056957683dfe0c3e289ea1c2304b19b5c09c17cabbb3a0464cd14463f41c7,
      0xb1d3c47c099254c6b9191f4b5192fca399d5a14a7a02dced4607b3dee4ab42e],
    [0x2,
      0x11f4976cde2d797fccb9514e3858c906cbbd9f5e520f003c71c209c80725abd1,
      0x30d056957683dfe0c3e289ea1c2304b19b5c09c17cabbb3a0464cd14463f41c7,
      0xb1d3c47c099254c6b9191f4b5192fca399d5a14a7a02dced4607b3dee4ab42e]]
  root := 0x1a00984bd6d5502a568507b952d3ffee3c21385fb4195b67b9aa3859dae3a555

/-- `test_vectors/merkle_path.rs:2668-3110`. -/
def merkle6 : MerkleVector where
  leaves := [0xdf89ad556370877d4f76a993d20c7e81393fdb51d55d7a8f5621d6ad566c13d,
    0x3c3d90941de0381afbd58755031ab0e9e1c2ef575a3dfade311eba7f2f225c49,
    0x8a068f473f4b432ac976676b3f2fe293ee50f795e53798b097146eb155388e2,
    0x11af021ae73c8612bdedff3959747e45905ebc9625e51124c0f0b9ec3222194b,
    0x3001daa5b88ccbce73cf5b35f3197dd1b3ca29c1bc8d0bf5389d7842465d4105,
    0x15d75dec41535a4f2aaaf5f7b0d44ccbc62690d382dc70265770a23639f15271,
    0x880f879cdb5cf58a1cfeed90926ceaf1b2a86218c1c645f3f73fa2add2f6f40,
    0x2,
    0x2,
    0x2,
    0x2,
    0x2,
    0x2,
    0x2,
    0x2,
    0x2]
  paths := [[0x3c3d90941de0381afbd58755031ab0e9e1c2ef575a3dfade311eba7f2f225c49,
      0x1cb7f6c331e745e76d7201cf0d417a3a9db397514074fd53576696aaa40dee11,
      0xfee72e9f1686ff36d30bc3e973d02d467984ab8056d07c9f4d0be235f61092,
      0x44279ac8f3c57b2aa1638aca9d27eda6a7df26d8174ec50fde5537739fc1121],
    [0xdf89ad556370877d4f76a993d20c7e81393fdb51d55d7a8f5621d6ad566c13d,
      0x1cb7f6c331e745e76d7201cf0d417a3a9db397514074fd53576696aaa40dee11,
      0xfee72e9f1686ff36d30bc3e973d02d467984ab8056d07c9f4d0be235f61092,
      0x44279ac8f3c57b2aa1638aca9d27eda6a7df26d8174ec50fde5537739fc1121],
    [0x11af021ae73c8612bdedff3959747e45905ebc9625e51124c0f0b9ec3222194b,
      0x41659a0354b30ce61cffb6ec1555d04285f0b9e38d3cabb958c92200aa0c300,
      0xfee72e9f1686ff36d30bc3e973d02d467984ab8056d07c9f4d0be235f61092,
      0x44279ac8f3c57b2aa1638aca9d27eda6a7df26d8174ec50fde5537739fc1121],
    [0x8a068f473f4b432ac976676b3f2fe293ee50f795e53798b097146eb155388e2,
      0x41659a0354b30ce61cffb6ec1555d04285f0b9e38d3cabb958c92200aa0c300,
      0xfee72e9f1686ff36d30bc3e973d02d467984ab8056d07c9f4d0be235f61092,
      0x44279ac8f3c57b2aa1638aca9d27eda6a7df26d8174ec50fde5537739fc1121],
    [0x15d75dec41535a4f2aaaf5f7b0d44ccbc62690d382dc70265770a23639f15271,
      0x3dd0e7efafca6fcefda107d3c6828c196148350e8fd1ba5192e8ccb3b7a38c41,
      0x196987ef2b5736846a40f993d04007a576c9747081f33ad99b813cf36e1b31c9,
      0x44279ac8f3c57b2aa1638aca9d27eda6a7df26d8174ec50fde5537739fc1121],
    [0x3001daa5b88ccbce73cf5b35f3197dd1b3ca29c1bc8d0bf5389d7842465d4105,
      0x3dd0e7efafca6fcefda107d3c6828c196148350e8fd1ba5192e8ccb3b7a38c41,
      0x196987ef2b5736846a40f993d04007a576c9747081f33ad99b813cf36e1b31c9,
      0x44279ac8f3c57b2aa1638aca9d27eda6a7df26d8174ec50fde5537739fc1121],
    [0x2,
      0x2dcc91c76e5e024202d60967e57fa7d6945445ebb350444e186218e0f83a0f65,
      0x196987ef2b5736846a40f993d04007a576c9747081f33ad99b813cf36e1b31c9,
      0x44279ac8f3c57b2aa1638aca9d27eda6a7df26d8174ec50fde5537739fc1121],
    [0x880f879cdb5cf58a1cfeed90926ceaf1b2a86218c1c645f3f73fa2add2f6f40,
      0x2dcc91c76e5e024202d60967e57fa7d6945445ebb350444e186218e0f83a0f65,
      0x196987ef2b5736846a40f993d04007a576c9747081f33ad99b813cf36e1b31c9,
      0x44279ac8f3c57b2aa1638aca9d27eda6a7df26d8174ec50fde5537739fc1121],
    [0x2,
      0x11f4976cde2d797fccb9514e3858c906cbbd9f5e520f003c71c209c80725abd1,
      0x30d056957683dfe0c3e289ea1c2304b19b5c09c17cabbb3a0464cd14463f41c7,
      0xebbfa9bd93c1a2efcf19bc6086b0170b397967ab0ca1a01396bb4a742d1de7],
    [0x2,
      0x11f4976cde2d797fccb9514e3858c906cbbd9f5e520f003c71c209c80725abd1,
      0x30d056957683dfe0c3e289ea1c2304b19b5c09c17cabbb3a0464cd14463f41c7,
      0xebbfa9bd93c1a2efcf19bc6086b0170b397967ab0ca1a01396bb4a742d1de7],
    [0x2,
      0x11f4976cde2d797fccb9514e3858c906cbbd9f5e520f003c71c209c80725abd1,
      0x30d056957683dfe0c3e289ea1c2304b19b5c09c17cabbb3a0464cd14463f41c7,
      0xebbfa9bd93c1a2efcf19bc6086b0170b397967ab0ca1a01396bb4a742d1de7],
    [0x2,
      0x11f4976cde2d797fccb9514e3858c906cbbd9f5e520f003c71c209c80725abd1,
      0x30d056957683dfe0c3e289ea1c2304b19b5c09c17cabbb3a0464cd14463f41c7,
      0xebbfa9bd93c1a2efcf19bc6086b0170b397967ab0ca1a01396bb4a742d1de7],
    [0x2,
      0x11f4976cde2d797fccb9514e3858c906cbbd9f5e520f003c71c209c80725abd1,
      0x30d056957683dfe0c3e289ea1c2304b19b5c09c17cabbb3a0464cd14463f41c7,
      0xebbfa9bd93c1a2efcf19bc6086b0170b397967ab0ca1a01396bb4a742d1de7],
    [0x2,
      0x11f4976cde2d797fccb9514e3858c906cbbd9f5e520f003c71c209c80725abd1,
      0x30d056957683dfe0c3e289ea1c2304b19b5c09c17cabbb3a0464cd14463f41c7,
      0xebbfa9bd93c1a2efcf19bc6086b0170b397967ab0ca1a01396bb4a742d1de7],
    [0x2,
      0x11f4976cde2d797fccb9514e3858c906cbbd9f5e520f003c71c209c80725abd1,
      0x30d056957683dfe0c3e289ea1c2304b19b5c09c17cabbb3a0464cd14463f41c7,
      0xebbfa9bd93c1a2efcf19bc6086b0170b397967ab0ca1a01396bb4a742d1de7],
    [0x2,
      0x11f4976cde2d797fccb9514e3858c906cbbd9f5e520f003c71c209c80725abd1,
      0x30d056957683dfe0c3e289ea1c2304b19b5c09c17cabbb3a0464cd14463f41c7,
      0xebbfa9bd93c1a2efcf19bc6086b0170b397967ab0ca1a01396bb4a742d1de7]]
  root := 0x2e67247e0e476f5c37494beb5fcd6ba56eb5b7ce1c8e16b0a8b6daa7111e4301

/-- `test_vectors/merkle_path.rs:3111-3553`. -/
def merkle7 : MerkleVector where
  leaves := [0xdf89ad556370877d4f76a993d20c7e81393fdb51d55d7a8f5621d6ad566c13d,
    0x3c3d90941de0381afbd58755031ab0e9e1c2ef575a3dfade311eba7f2f225c49,
    0x8a068f473f4b432ac976676b3f2fe293ee50f795e53798b097146eb155388e2,
    0x11af021ae73c8612bdedff3959747e45905ebc9625e51124c0f0b9ec3222194b,
    0x3001daa5b88ccbce73cf5b35f3197dd1b3ca29c1bc8d0bf5389d7842465d4105,
    0x15d75dec41535a4f2aaaf5f7b0d44ccbc62690d382dc70265770a23639f15271,
    0x880f879cdb5cf58a1cfeed90926ceaf1b2a86218c1c645f3f73fa2add2f6f40,
    0x3f798633c14a37f830bdc61862b5ceaa4f3137406065ecca73dffb9c23538c86,
    0x2,
    0x2,
    0x2,
    0x2,
    0x2,
    0x2,
    0x2,
    0x2]
  paths := [[0x3c3d90941de0381afbd58755031ab0e9e1c2ef575a3dfade311eba7f2f225c49,
      0x1cb7f6c331e745e76d7201cf0d417a3a9db397514074fd53576696aaa40dee11,
      0x3de79d7680051c0dddcb3fd4f6d98b160a65bae23127bd4ccf21f9843b05cd74,
      0x44279ac8f3c57b2aa1638aca9d27eda6a7df26d8174ec50fde5537739fc1121],
    [0xdf89ad556370877d4f76a993d20c7e81393fdb51d55d7a8f5621d6ad566c13d,
      0x1cb7f6c331e745e76d7201cf0d417a3a9db397514074fd53576696aaa40dee11,
      0x3de79d7680051c0dddcb3fd4f6d98b160a65bae23127bd4ccf21f9843b05cd74,
      0x44279ac8f3c57b2aa1638aca9d27eda6a7df26d8174ec50fde5537739fc1121],
    [0x11af021ae73c8612bdedff3959747e45905ebc9625e51124c0f0b9ec3222194b,
      0x41659a0354b30ce61cffb6ec1555d04285f0b9e38d3cabb958c92200aa0c300,
      0x3de79d7680051c0dddcb3fd4f6d98b160a65bae23127bd4ccf21f9843b05cd74,
      0x44279ac8f3c57b2aa1638aca9d27eda6a7df26d8174ec50fde5537739fc1121],
    [0x8a068f473f4b432ac976676b3f2fe293ee50f795e53798b097146eb155388e2,
      0x41659a0354b30ce61cffb6ec1555d04285f0b9e38d3cabb958c92200aa0c300,
      0x3de79d7680051c0dddcb3fd4f6d98b160a65bae23127bd4ccf21f9843b05cd74,
      0x44279ac8f3c57b2aa1638aca9d27eda6a7df26d8174ec50fde5537739fc1121],
    [0x15d75dec41535a4f2aaaf5f7b0d44ccbc62690d382dc70265770a23639f15271,
      0x39c9c32ce6c9539f13755f30cb6729c4e6a3938f8c96133a264f4624daedba8b,
      0x196987ef2b5736846a40f993d04007a576c9747081f33ad99b813cf36e1b31c9,
      0x44279ac8f3c57b2aa1638aca9d27eda6a7df26d8174ec50fde5537739fc1121],
    [0x3001daa5b88ccbce73cf5b35f3197dd1b3ca29c1bc8d0bf5389d7842465d4105,
      0x39c9c32ce6c9539f13755f30cb6729c4e6a3938f8c96133a264f4624daedba8b,
      0x196987ef2b5736846a40f993d04007a576c9747081f33ad99b813cf36e1b31c9,
      0x44279ac8f3c57b2aa1638aca9d27eda6a7df26d8174ec50fde5537739fc1121],
    [0x3f798633c14a37f830bdc61862b5ceaa4f3137406065ecca73dffb9c23538c86,
      0x2dcc91c76e5e024202d60967e57fa7d6945445ebb350444e186218e0f83a0f65,
      0x196987ef2b5736846a40f993d04007a576c9747081f33ad99b813cf36e1b31c9,
      0x44279ac8f3c57b2aa1638aca9d27eda6a7df26d8174ec50fde5537739fc1121],
    [0x880f879cdb5cf58a1cfeed90926ceaf1b2a86218c1c645f3f73fa2add2f6f40,
      0x2dcc91c76e5e024202d60967e57fa7d6945445ebb350444e186218e0f83a0f65,
      0x196987ef2b5736846a40f993d04007a576c9747081f33ad99b813cf36e1b31c9,
      0x44279ac8f3c57b2aa1638aca9d27eda6a7df26d8174ec50fde5537739fc1121],
    [0x2,
      0x11f4976cde2d797fccb9514e3858c906cbbd9f5e520f003c71c209c80725abd1,
      0x30d056957683dfe0c3e289ea1c2304b19b5c09c17cabbb3a0464cd14463f41c7,
      0x15e1a1fe8c700581e40b89463c83241f40e566d878d1b28802ad2bfd878f901],
    [0x2,
      0x11f4976cde2d797fccb9514e3858c906cbbd9f5e520f003c71c209c80725abd1,
      0x30d056957683dfe0c3e289ea1c2304b19b5c09c17cabbb3a0464cd14463f41c7,
      0x15e1a1fe8c700581e40b89463c83241f40e566d878d1b28802ad2bfd878f901],
    [0x2,
      0x11f4976cde2d797fccb9514e3858c906cbbd9f5e520f003c71c209c80725abd1,
      0x30d056957683dfe0c3e289ea1c2304b19b5c09c17cabbb3a0464cd14463f41c7,
      0x15e1a1fe8c700581e40b89463c83241f40e566d878d1b28802ad2bfd878f901],
    [0x2,
      0x11f4976cde2d797fccb9514e3858c906cbbd9f5e520f003c71c209c80725abd1,
      0x30d056957683dfe0c3e289ea1c2304b19b5c09c17cabbb3a0464cd14463f41c7,
      0x15e1a1fe8c700581e40b89463c83241f40e566d878d1b28802ad2bfd878f901],
    [0x2,
      0x11f4976cde2d797fccb9514e3858c906cbbd9f5e520f003c71c209c80725abd1,
      0x30d056957683dfe0c3e289ea1c2304b19b5c09c17cabbb3a0464cd14463f41c7,
      0x15e1a1fe8c700581e40b89463c83241f40e566d878d1b28802ad2bfd878f901],
    [0x2,
      0x11f4976cde2d797fccb9514e3858c906cbbd9f5e520f003c71c209c80725abd1,
      0x30d056957683dfe0c3e289ea1c2304b19b5c09c17cabbb3a0464cd14463f41c7,
      0x15e1a1fe8c700581e40b89463c83241f40e566d878d1b28802ad2bfd878f901],
    [0x2,
      0x11f4976cde2d797fccb9514e3858c906cbbd9f5e520f003c71c209c80725abd1,
      0x30d056957683dfe0c3e289ea1c2304b19b5c09c17cabbb3a0464cd14463f41c7,
      0x15e1a1fe8c700581e40b89463c83241f40e566d878d1b28802ad2bfd878f901],
    [0x2,
      0x11f4976cde2d797fccb9514e3858c906cbbd9f5e520f003c71c209c80725abd1,
      0x30d056957683dfe0c3e289ea1c2304b19b5c09c17cabbb3a0464cd14463f41c7,
      0x15e1a1fe8c700581e40b89463c83241f40e566d878d1b28802ad2bfd878f901]]
  root := 0x9ab0e393a3e59476959fddbd6c1703df521b769e1b0a9f244335f9c02019bfb

/-- `test_vectors/merkle_path.rs:3554-3996`. -/
def merkle8 : MerkleVector where
  leaves := [0xdf89ad556370877d4f76a993d20c7e81393fdb51d55d7a8f5621d6ad566c13d,
    0x3c3d90941de0381afbd58755031ab0e9e1c2ef575a3dfade311eba7f2f225c49,
    0x8a068f473f4b432ac976676b3f2fe293ee50f795e53798b097146eb155388e2,
    0x11af021ae73c8612bdedff3959747e45905ebc9625e51124c0f0b9ec3222194b,
    0x3001daa5b88ccbce73cf5b35f3197dd1b3ca29c1bc8d0bf5389d7842465d4105,
    0x15d75dec41535a4f2aaaf5f7b0d44ccbc62690d382dc70265770a23639f15271,
    0x880f879cdb5cf58a1cfeed90926ceaf1b2a86218c1c645f3f73fa2add2f6f40,
    0x3f798633c14a37f830bdc61862b5ceaa4f3137406065ecca73dffb9c23538c86,
    0x650e94996707a47cebeb5875b0edfa1b1e1006c94444ada0cbc03ad80fba921,
    0x2,
    0x2,
    0x2,
    0x2,
    0x2,
    0x2,
    0x2]
  paths := [[0x3c3d90941de0381afbd58755031ab0e9e1c2ef575a3dfade311eba7f2f225c49,
      0x1cb7f6c331e745e76d7201cf0d417a3a9db397514074fd53576696aaa40dee11,
      0x3de79d7680051c0dddcb3fd4f6d98b160a65bae23127bd4ccf21f9843b05cd74,
      0x25c79fa95f323b2a3465a41deb57db41ee932bc316a11400c328dbc78ed8c073],
    [0xdf89ad556370877d4f76a993d20c7e81393fdb51d55d7a8f5621d6ad566c13d,
      0x1cb7f6c331e745e76d7201cf0d417a3a9db397514074fd53576696aaa40dee11,
      0x3de79d7680051c0dddcb3fd4f6d98b160a65bae23127bd4ccf21f9843b05cd74,
      0x25c79fa95f323b2a3465a41deb57db41ee932bc316a11400c328dbc78ed8c073],
    [0x11af021ae73c8612bdedff3959747e45905ebc9625e51124c0f0b9ec3222194b,
      0x41659a0354b30ce61cffb6ec1555d04285f0b9e38d3cabb958c92200aa0c300,
      0x3de79d7680051c0dddcb3fd4f6d98b160a65bae23127bd4ccf21f9843b05cd74,
      0x25c79fa95f323b2a3465a41deb57db41ee932bc316a11400c328dbc78ed8c073],
    [0x8a068f473f4b432ac976676b3f2fe293ee50f795e53798b097146eb155388e2,
      0x41659a0354b30ce61cffb6ec1555d04285f0b9e38d3cabb958c92200aa0c300,
      0x3de79d7680051c0dddcb3fd4f6d98b160a65bae23127bd4ccf21f9843b05cd74,
      0x25c79fa95f323b2a3465a41deb57db41ee932bc316a11400c328dbc78ed8c073],
    [0x15d75dec41535a4f2aaaf5f7b0d44ccbc62690d382dc70265770a23639f15271,
      0x39c9c32ce6c9539f13755f30cb6729c4e6a3938f8c96133a264f4624daedba8b,
      0x196987ef2b5736846a40f993d04007a576c9747081f33ad99b813cf36e1b31c9,
      0x25c79fa95f323b2a3465a41deb57db41ee932bc316a11400c328dbc78ed8c073],
    [0x3001daa5b88ccbce73cf5b35f3197dd1b3ca29c1bc8d0bf5389d7842465d4105,
      0x39c9c32ce6c9539f13755f30cb6729c4e6a3938f8c96133a264f4624daedba8b,
      0x196987ef2b5736846a40f993d04007a576c9747081f33ad99b813cf36e1b31c9,
      0x25c79fa95f323b2a3465a41deb57db41ee932bc316a11400c328dbc78ed8c073],
    [0x3f798633c14a37f830bdc61862b5ceaa4f3137406065ecca73dffb9c23538c86,
      0x2dcc91c76e5e024202d60967e57fa7d6945445ebb350444e186218e0f83a0f65,
      0x196987ef2b5736846a40f993d04007a576c9747081f33ad99b813cf36e1b31c9,
      0x25c79fa95f323b2a3465a41deb57db41ee932bc316a11400c328dbc78ed8c073],
    [0x880f879cdb5cf58a1cfeed90926ceaf1b2a86218c1c645f3f73fa2add2f6f40,
      0x2dcc91c76e5e024202d60967e57fa7d6945445ebb350444e186218e0f83a0f65,
      0x196987ef2b5736846a40f993d04007a576c9747081f33ad99b813cf36e1b31c9,
      0x25c79fa95f323b2a3465a41deb57db41ee932bc316a11400c328dbc78ed8c073],
    [0x2,
      0x11f4976cde2d797fccb9514e3858c906cbbd9f5e520f003c71c209c80725abd1,
      0x30d056957683dfe0c3e289ea1c2304b19b5c09c17cabbb3a0464cd14463f41c7,
      0x15e1a1fe8c700581e40b89463c83241f40e566d878d1b28802ad2bfd878f901],
    [0x650e94996707a47cebeb5875b0edfa1b1e1006c94444ada0cbc03ad80fba921,
      0x11f4976cde2d797fccb9514e3858c906cbbd9f5e520f003c71c209c80725abd1,
      0x30d056957683dfe0c3e289ea1c2304b19b5c09c17cabbb3a0464cd14463f41c7,
      0x15e1a1fe8c700581e40b89463c83241f40e566d878d1b28802ad2bfd878f901],
    [0x2,
      0x6a6cf2088696c6574770bd95b8bff64ff4f4ab71e71c87600b788d313efcf6a,
      0x30d056957683dfe0c3e289ea1c2304b19b5c09c17cabbb3a0464cd14463f41c7,
      0x15e1a1fe8c700581e40b89463c83241f40e566d878d1b28802ad2bfd878f901],
    [0x2,
      0x6a6cf2088696c6574770bd95b8bff64ff4f4ab71e71c87600b788d313efcf6a,
      0x30d056957683dfe0c3e289ea1c2304b19b5c09c17cabbb3a0464cd14463f41c7,
      0x15e1a1fe8c700581e40b89463c83241f40e566d878d1b28802ad2bfd878f901],
    [0x2,
      0x11f4976cde2d797fccb9514e3858c906cbbd9f5e520f003c71c209c80725abd1,
      0x36becd40da1f1dfacf671620f11e4ee93389efc5cf679de41e1be53ffa55072e,
      0x15e1a1fe8c700581e40b89463c83241f40e566d878d1b28802ad2bfd878f901],
    [0x2,
      0x11f4976cde2d797fccb9514e3858c906cbbd9f5e520f003c71c209c80725abd1,
      0x36becd40da1f1dfacf671620f11e4ee93389efc5cf679de41e1be53ffa55072e,
      0x15e1a1fe8c700581e40b89463c83241f40e566d878d1b28802ad2bfd878f901],
    [0x2,
      0x11f4976cde2d797fccb9514e3858c906cbbd9f5e520f003c71c209c80725abd1,
      0x36becd40da1f1dfacf671620f11e4ee93389efc5cf679de41e1be53ffa55072e,
      0x15e1a1fe8c700581e40b89463c83241f40e566d878d1b28802ad2bfd878f901],
    [0x2,
      0x11f4976cde2d797fccb9514e3858c906cbbd9f5e520f003c71c209c80725abd1,
      0x36becd40da1f1dfacf671620f11e4ee93389efc5cf679de41e1be53ffa55072e,
      0x15e1a1fe8c700581e40b89463c83241f40e566d878d1b28802ad2bfd878f901]]
  root := 0x3df891bea10e4ea654768e12e6bd27420ca0efd31bac24b8e6c88c37a6d0b8bd

/-- `test_vectors/merkle_path.rs:3997-4439`. -/
def merkle9 : MerkleVector where
  leaves := [0xdf89ad556370877d4f76a993d20c7e81393fdb51d55d7a8f5621d6ad566c13d,
    0x3c3d90941de0381afbd58755031ab0e9e1c2ef575a3dfade311eba7f2f225c49,
    0x8a068f473f4b432ac976676b3f2fe293ee50f795e53798b097146eb155388e2,
    0x11af021ae73c8612bdedff3959747e45905ebc9625e51124c0f0b9ec3222194b,
    0x3001daa5b88ccbce73cf5b35f3197dd1b3ca29c1bc8d0bf5389d7842465d4105,
    0x15d75dec41535a4f2aaaf5f7b0d44ccbc62690d382dc70265770a23639f15271,
    0x880f879cdb5cf58a1cfeed90926ceaf1b2a86218c1c645f3f73fa2add2f6f40,
    0x3f798633c14a37f830bdc61862b5ceaa4f3137406065ecca73dffb9c23538c86,
    0x650e94996707a47cebeb5875b0edfa1b1e1006c94444ada0cbc03ad80fba921,
    0x8fa156f808478d923818206ea4024195a62689eff1af26b5c82fa96952ed626,
    0x2,
    0x2,
    0x2,
    0x2,
    0x2,
    0x2]
  paths := [[0x3c3d90941de0381afbd58755031ab0e9e1c2ef575a3dfade311eba7f2f225c49,
      0x1cb7f6c331e745e76d7201cf0d417a3a9db397514074fd53576696aaa40dee11,
      0x3de79d7680051c0dddcb3fd4f6d98b160a65bae23127bd4ccf21f9843b05cd74,
      0x3474cb0a5bee800f1dfcaca1aea6f7b92a30fa70113def5b0ea4449cd7deee6d],
    [0xdf89ad556370877d4f76a993d20c7e81393fdb51d55d7a8f5621d6ad566c13d,
      0x1cb7f6c331e745e76d7201cf0d417a3a9db397514074fd53576696aaa40dee11,
      0x3de79d7680051c0dddcb3fd4f6d98b160a65bae23127bd4ccf21f9843b05cd74,
      0x3474cb0a5bee800f1dfcaca1aea6f7b92a30fa70113def5b0ea4449cd7deee6d],
    [0x11af021ae73c8612bdedff3959747e45905ebc9625e51124c0f0b9ec3222194b,
      0x41659a0354b30ce61cffb6ec1555d04285f0b9e38d3cabb958c92200aa0c300,
      0x3de79d7680051c0dddcb3fd4f6d98b160a65bae23127bd4ccf21f9843b05cd74,
      0x3474cb0a5bee800f1dfcaca1aea6f7b92a30fa70113def5b0ea4449cd7deee6d],
    [0x8a068f473f4b432ac976676b3f2fe293ee50f795e53798b097146eb155388e2,
      0x41659a0354b30ce61cffb6ec1555d04285f0b9e38d3cabb958c92200aa0c300,
      0x3de79d7680051c0dddcb3fd4f6d98b160a65bae23127bd4ccf21f9843b05cd74,
      0x3474cb0a5bee800f1dfcaca1aea6f7b92a30fa70113def5b0ea4449cd7deee6d],
    [0x15d75dec41535a4f2aaaf5f7b0d44ccbc62690d382dc70265770a23639f15271,
      0x39c9c32ce6c9539f13755f30cb6729c4e6a3938f8c96133a264f4624daedba8b,
      0x196987ef2b5736846a40f993d04007a576c9747081f33ad99b813cf36e1b31c9,
      0x3474cb0a5bee800f1dfcaca1aea6f7b92a30fa70113def5b0ea4449cd7deee6d],
    [0x3001daa5b88ccbce73cf5b35f3197dd1b3ca29c1bc8d0bf5389d7842465d4105,
      0x39c9c32ce6c9539f13755f30cb6729c4e6a3938f8c96133a264f4624daedba8b,
      0x196987ef2b5736846a40f993d04007a576c9747081f33ad99b813cf36e1b31c9,
      0x3474cb0a5bee800f1dfcaca1aea6f7b92a30fa70113def5b0ea4449cd7deee6d],
    [0x3f798633c14a37f830bdc61862b5ceaa4f3137406065ecca73dffb9c23538c86,
      0x2dcc91c76e5e024202d60967e57fa7d6945445ebb350444e186218e0f83a0f65,
      0x196987ef2b5736846a40f993d04007a576c9747081f33ad99b813cf36e1b31c9,
      0x3474cb0a5bee800f1dfcaca1aea6f7b92a30fa70113def5b0ea4449cd7deee6d],
    [0x880f879cdb5cf58a1cfeed90926ceaf1b2a86218c1c645f3f73fa2add2f6f40,
      0x2dcc91c76e5e024202d60967e57fa7d6945445ebb350444e186218e0f83a0f65,
      0x196987ef2b5736846a40f993d04007a576c9747081f33ad99b813cf36e1b31c9,
      0x3474cb0a5bee800f1dfcaca1aea6f7b92a30fa70113def5b0ea4449cd7deee6d],
    [0x8fa156f808478d923818206ea4024195a62689eff1af26b5c82fa96952ed626,
      0x11f4976cde2d797fccb9514e3858c906cbbd9f5e520f003c71c209c80725abd1,
      0x30d056957683dfe0c3e289ea1c2304b19b5c09c17cabbb3a0464cd14463f41c7,
      0x15e1a1fe8c700581e40b89463c83241f40e566d878d1b28802ad2bfd878f901],
    [0x650e94996707a47cebeb5875b0edfa1b1e1006c94444ada0cbc03ad80fba921,
      0x11f4976cde2d797fccb9514e3858c906cbbd9f5e520f003c71c209c80725abd1,
      0x30d056957683dfe0c3e289ea1c2304b19b5c09c17cabbb3a0464cd14463f41c7,
      0x15e1a1fe8c700581e40b89463c83241f40e566d878d1b28802ad2bfd878f901],
    [0x2,
      0x173e56269b68dc2bdf5b409a45e4efd7f55ce3a9c1367e217932675ca3ef8a8b,
      0x30d056957683dfe0c3e289ea1c2304b19b5c09c17cabbb3a0464cd14463f41c7,
      0x15e1a1fe8c700581e40b89463c83241f40e566d878d1b28802ad2bfd878f901],
    [0x2,
      0x173e56269b68dc2bdf5b409a45e4efd7f55ce3a9c1367e217932675ca3ef8a8b,
      0x30d056957683dfe0c3e289ea1c2304b19b5c09c17cabbb3a0464cd14463f41c7,
      0x15e1a1fe8c700581e40b89463c83241f40e566d878d1b28802ad2bfd878f901],
    [0x2,
      0x11f4976cde2d797fccb9514e3858c906cbbd9f5e520f003c71c209c80725abd1,
      0x1af246d4b549cbe2a8d32b7e18b33fcc0aba3ce88a9c58377a0577da4ed839aa,
      0x15e1a1fe8c700581e40b89463c83241f40e566d878d1b28802ad2bfd878f901],
    [0x2,
      0x11f4976cde2d797fccb9514e3858c906cbbd9f5e520f003c71c209c80725abd1,
      0x1af246d4b549cbe2a8d32b7e18b33fcc0aba3ce88a9c58377a0577da4ed839aa,
      0x15e1a1fe8c700581e40b89463c83241f40e566d878d1b28802ad2bfd878f901],
    [0x2,
      0x11f4976cde2d797fccb9514e3858c906cbbd9f5e520f003c71c209c80725abd1,
      0x1af246d4b549cbe2a8d32b7e18b33fcc0aba3ce88a9c58377a0577da4ed839aa,
      0x15e1a1fe8c700581e40b89463c83241f40e566d878d1b28802ad2bfd878f901],
    [0x2,
      0x11f4976cde2d797fccb9514e3858c906cbbd9f5e520f003c71c209c80725abd1,
      0x1af246d4b549cbe2a8d32b7e18b33fcc0aba3ce88a9c58377a0577da4ed839aa,
      0x15e1a1fe8c700581e40b89463c83241f40e566d878d1b28802ad2bfd878f901]]
  root := 0x12703a3602243ad2f40a89cd4485e50a5f33239222bac6a1fc80ea87c021c661

/-- `test_vectors/merkle_path.rs:4440-4882`. -/
def merkle10 : MerkleVector where
  leaves := [0xdf89ad556370877d4f76a993d20c7e81393fdb51d55d7a8f5621d6ad566c13d,
    0x3c3d90941de0381afbd58755031ab0e9e1c2ef575a3dfade311eba7f2f225c49,
    0x8a068f473f4b432ac976676b3f2fe293ee50f795e53798b097146eb155388e2,
    0x11af021ae73c8612bdedff3959747e45905ebc9625e51124c0f0b9ec3222194b,
    0x3001daa5b88ccbce73cf5b35f3197dd1b3ca29c1bc8d0bf5389d7842465d4105,
    0x15d75dec41535a4f2aaaf5f7b0d44ccbc62690d382dc70265770a23639f15271,
    0x880f879cdb5cf58a1cfeed90926ceaf1b2a86218c1c645f3f73fa2add2f6f40,
    0x3f798633c14a37f830bdc61862b5ceaa4f3137406065ecca73dffb9c23538c86,
    0x650e94996707a47cebeb5875b0edfa1b1e1006c94444ada0cbc03ad80fba921,
    0x8fa156f808478d923818206ea4024195a62689eff1af26b5c82fa96952ed626,
    0x1d3f53a474f8e375569848bc7b402902ad82ce1cac11d4321c4352d4a2d31408,
    0x2,
    0x2,
    0x2,
    0x2,
    0x2]
  paths := [[0x3c3d90941de0381afbd58755031ab0e9e1c2ef575a3dfade311eba7f2f225c49,
      0x1cb7f6c331e745e76d7201cf0d417a3a9db397514074fd53576696aaa40dee11,
      0x3de79d7680051c0dddcb3fd4f6d98b160a65bae23127bd4ccf21f9843b05cd74,
      0xcbdf7eb31176feff222e2c72673e3dc025a22a6a11800b1b1f808b8330588b9],
    [0xdf89ad556370877d4f76a993d20c7e81393fdb51d55d7a8f5621d6ad566c13d,
      0x1cb7f6c331e745e76d7201cf0d417a3a9db397514074fd53576696aaa40dee11,
      0x3de79d7680051c0dddcb3fd4f6d98b160a65bae23127bd4ccf21f9843b05cd74,
      0xcbdf7eb31176feff222e2c72673e3dc025a22a6a11800b1b1f808b8330588b9],
    [0x11af021ae73c8612bdedff3959747e45905ebc9625e51124c0f0b9ec3222194b,
      0x41659a0354b30ce61cffb6ec1555d04285f0b9e38d3cabb958c92200aa0c300,
      0x3de79d7680051c0dddcb3fd4f6d98b160a65bae23127bd4ccf21f9843b05cd74,
      0xcbdf7eb31176feff222e2c72673e3dc025a22a6a11800b1b1f808b8330588b9],
    [0x8a068f473f4b432ac976676b3f2fe293ee50f795e53798b097146eb155388e2,
      0x41659a0354b30ce61cffb6ec1555d04285f0b9e38d3cabb958c92200aa0c300,
      0x3de79d7680051c0dddcb3fd4f6d98b160a65bae23127bd4ccf21f9843b05cd74,
      0xcbdf7eb31176feff222e2c72673e3dc025a22a6a11800b1b1f808b8330588b9],
    [0x15d75dec41535a4f2aaaf5f7b0d44ccbc62690d382dc70265770a23639f15271,
      0x39c9c32ce6c9539f13755f30cb6729c4e6a3938f8c96133a264f4624daedba8b,
      0x196987ef2b5736846a40f993d04007a576c9747081f33ad99b813cf36e1b31c9,
      0xcbdf7eb31176feff222e2c72673e3dc025a22a6a11800b1b1f808b8330588b9],
    [0x3001daa5b88ccbce73cf5b35f3197dd1b3ca29c1bc8d0bf5389d7842465d4105,
      0x39c9c32ce6c9539f13755f30cb6729c4e6a3938f8c96133a264f4624daedba8b,
      0x196987ef2b5736846a40f993d04007a576c9747081f33ad99b813cf36e1b31c9,
      0xcbdf7eb31176feff222e2c72673e3dc025a22a6a11800b1b1f808b8330588b9],
    [0x3f798633c14a37f830bdc61862b5ceaa4f3137406065ecca73dffb9c23538c86,
      0x2dcc91c76e5e024202d60967e57fa7d6945445ebb350444e186218e0f83a0f65,
      0x196987ef2b5736846a40f993d04007a576c9747081f33ad99b813cf36e1b31c9,
      0xcbdf7eb31176feff222e2c72673e3dc025a22a6a11800b1b1f808b8330588b9],
    [0x880f879cdb5cf58a1cfeed90926ceaf1b2a86218c1c645f3f73fa2add2f6f40,
      0x2dcc91c76e5e024202d60967e57fa7d6945445ebb350444e186218e0f83a0f65,
      0x196987ef2b5736846a40f993d04007a576c9747081f33ad99b813cf36e1b31c9,
      0xcbdf7eb31176feff222e2c72673e3dc025a22a6a11800b1b1f808b8330588b9],
    [0x8fa156f808478d923818206ea4024195a62689eff1af26b5c82fa96952ed626,
      0x212309838733649a508f84d08b9305083921dd88d41394bef4a7602b42711a64,
      0x30d056957683dfe0c3e289ea1c2304b19b5c09c17cabbb3a0464cd14463f41c7,
      0x15e1a1fe8c700581e40b89463c83241f40e566d878d1b28802ad2bfd878f901],
    [0x650e94996707a47cebeb5875b0edfa1b1e1006c94444ada0cbc03ad80fba921,
      0x212309838733649a508f84d08b9305083921dd88d41394bef4a7602b42711a64,
      0x30d056957683dfe0c3e289ea1c2304b19b5c09c17cabbb3a0464cd14463f41c7,
      0x15e1a1fe8c700581e40b89463c83241f40e566d878d1b28802ad2bfd878f901],
    [0x2,
      0x173e56269b68dc2bdf5b409a45e4efd7f55ce3a9c1367e217932675ca3ef8a8b,
      0x30d056957683dfe0c3e289ea1c2304b19b5c09c17cabbb3a0464cd14463f41c7,
      0x15e1a1fe8c700581e40b89463c83241f40e566d878d1b28802ad2bfd878f901],
    [0x1d3f53a474f8e375569848bc7b402902ad82ce1cac11d4321c4352d4a2d31408,
      0x173e56269b68dc2bdf5b409a45e4efd7f55ce3a9c1367e217932675ca3ef8a8b,
      0x30d056957683dfe0c3e289ea1c2304b19b5c09c17cabbb3a0464cd14463f41c7,
      0x15e1a1fe8c700581e40b89463c83241f40e566d878d1b28802ad2bfd878f901],
    [0x2,
      0x11f4976cde2d797fccb9514e3858c906cbbd9f5e520f003c71c209c80725abd1,
      0x11c003465b54508202ba0c6e2bf0d3b1365e10cf74fce73791a91b0847c2ff55,
      0x15e1a1fe8c700581e40b89463c83241f40e566d878d1b28802ad2bfd878f901],
    [0x2,
      0x11f4976cde2d797fccb9514e3858c906cbbd9f5e520f003c71c209c80725abd1,
      0x11c003465b54508202ba0c6e2bf0d3b1365e10cf74fce73791a91b0847c2ff55,
      0x15e1a1fe8c700581e40b89463c83241f40e566d878d1b28802ad2bfd878f901],
    [0x2,
      0x11f4976cde2d797fccb9514e3858c906cbbd9f5e520f003c71c209c80725abd1,
      0x11c003465b54508202ba0c6e2bf0d3b1365e10cf74fce73791a91b0847c2ff55,
      0x15e1a1fe8c700581e40b89463c83241f40e566d878d1b28802ad2bfd878f901],
    [0x2,
      0x11f4976cde2d797fccb9514e3858c906cbbd9f5e520f003c71c209c80725abd1,
      0x11c003465b54508202ba0c6e2bf0d3b1365e10cf74fce73791a91b0847c2ff55,
      0x15e1a1fe8c700581e40b89463c83241f40e566d878d1b28802ad2bfd878f901]]
  root := 0x22fe1a12b10bf4ded49cfca46181652e29a550333ad5dbfc4949ce361fb81c5f

/-- `test_vectors/merkle_path.rs:4883-5325`. -/
def merkle11 : MerkleVector where
  leaves := [0xdf89ad556370877d4f76a993d20c7e81393fdb51d55d7a8f5621d6ad566c13d,
    0x3c3d90941de0381afbd58755031ab0e9e1c2ef575a3dfade311eba7f2f225c49,
    0x8a068f473f4b432ac976676b3f2fe293ee50f795e53798b097146eb155388e2,
    0x11af021ae73c8612bdedff3959747e45905ebc9625e51124c0f0b9ec3222194b,
    0x3001daa5b88ccbce73cf5b35f3197dd1b3ca29c1bc8d0bf5389d7842465d4105,
    0x15d75dec41535a4f2aaaf5f7b0d44ccbc62690d382dc70265770a23639f15271,
    0x880f879cdb5cf58a1cfeed90926ceaf1b2a86218c1c645f3f73fa2add2f6f40,
    0x3f798633c14a37f830bdc61862b5ceaa4f3137406065ecca73dffb9c23538c86,
    0x650e94996707a47cebeb5875b0edfa1b1e1006c94444ada0cbc03ad80fba921,
    0x8fa156f808478d923818206ea4024195a62689eff1af26b5c82fa96952ed626,
    0x1d3f53a474f8e375569848bc7b402902ad82ce1cac11d4321c4352d4a2d31408,
    0x17102339af296c234ce5b4e9f32973cc14384445a68dee437b655dbadddd513d,
    0x2,
    0x2,
    0x2,
    0x2]
  paths := [[0x3c3d90941de0381afbd58755031ab0e9e1c2ef575a3dfade311eba7f2f225c49,
      0x1cb7f6c331e745e76d7201cf0d417a3a9db397514074fd53576696aaa40dee11,
      0x3de79d7680051c0dddcb3fd4f6d98b160a65bae23127bd4ccf21f9843b05cd74,
      0x3bdd3c4d5e575c29a53f7126f1b29d3ffe6fa05ae4f473134c13c523535b476c],
    [0xdf89ad556370877d4f76a993d20c7e81393fdb51d55d7a8f5621d6ad566c13d,
      0x1cb7f6c331e745e76d7201cf0d417a3a9db397514074fd53576696aaa40dee11,
      0x3de79d7680051c0dddcb3fd4f6d98b160a65bae23127bd4ccf21f9843b05cd74,
      0x3bdd3c4d5e575c29a53f7126f1b29d3ffe6fa05ae4f473134c13c523535b476c],
    [0x11af021ae73c8612bdedff3959747e45905ebc9625e51124c0f0b9ec3222194b,
      0x41659a0354b30ce61cffb6ec1555d04285f0b9e38d3cabb958c92200aa0c300,
      0x3de79d7680051c0dddcb3fd4f6d98b160a65bae23127bd4ccf21f9843b05cd74,
      0x3bdd3c4d5e575c29a53f7126f1b29d3ffe6fa05ae4f473134c13c523535b476c],
    [0x8a068f473f4b432ac976676b3f2fe293ee50f795e53798b097146eb155388e2,
      0x41659a0354b30ce61cffb6ec1555d04285f0b9e38d3cabb958c92200aa0c300,
      0x3de79d7680051c0dddcb3fd4f6d98b160a65bae23127bd4ccf21f9843b05cd74,
      0x3bdd3c4d5e575c29a53f7126f1b29d3ffe6fa05ae4f473134c13c523535b476c],
    [0x15d75dec41535a4f2aaaf5f7b0d44ccbc62690d382dc70265770a23639f15271,
      0x39c9c32ce6c9539f13755f30cb6729c4e6a3938f8c96133a264f4624daedba8b,
      0x196987ef2b5736846a40f993d04007a576c9747081f33ad99b813cf36e1b31c9,
      0x3bdd3c4d5e575c29a53f7126f1b29d3ffe6fa05ae4f473134c13c523535b476c],
    [0x3001daa5b88ccbce73cf5b35f3197dd1b3ca29c1bc8d0bf5389d7842465d4105,
      0x39c9c32ce6c9539f13755f30cb6729c4e6a3938f8c96133a264f4624daedba8b,
      0x196987ef2b5736846a40f993d04007a576c9747081f33ad99b813cf36e1b31c9,
      0x3bdd3c4d5e575c29a53f7126f1b29d3ffe6fa05ae4f473134c13c523535b476c],
    [0x3f798633c14a37f830bdc61862b5ceaa4f3137406065ecca73dffb9c23538c86,
      0x2dcc91c76e5e024202d60967e57fa7d6945445ebb350444e186218e0f83a0f65,
      0x196987ef2b5736846a40f993d04007a576c9747081f33ad99b813cf36e1b31c9,
      0x3bdd3c4d5e575c29a53f7126f1b29d3ffe6fa05ae4f473134c13c523535b476c],
    [0x880f879cdb5cf58a1cfeed90926ceaf1b2a86218c1c645f3f73fa2add2f6f40,
      0x2dcc91c76e5e024202d60967e57fa7d6945445ebb350444e186218e0f83a0f65,
      0x196987ef2b5736846a40f993d04007a576c9747081f33ad99b813cf36e1b31c9,
      0x3bdd3c4d5e575c29a53f7126f1b29d3ffe6fa05ae4f473134c13c523535b476c],
    [0x8fa156f808478d923818206ea4024195a62689eff1af26b5c82fa96952ed626,
      0x284192abf4ab3e08dfac0c8d9eecbe99150387f78db99c7831ed74f61f4f0946,
      0x30d056957683dfe0c3e289ea1c2304b19b5c09c17cabbb3a0464cd14463f41c7,
      0x15e1a1fe8c700581e40b89463c83241f40e566d878d1b28802ad2bfd878f901],
    [0x650e94996707a47cebeb5875b0edfa1b1e1006c94444ada0cbc03ad80fba921,
      0x284192abf4ab3e08dfac0c8d9eecbe99150387f78db99c7831ed74f61f4f0946,
      0x30d056957683dfe0c3e289ea1c2304b19b5c09c17cabbb3a0464cd14463f41c7,
      0x15e1a1fe8c700581e40b89463c83241f40e566d878d1b28802ad2bfd878f901],
    [0x17102339af296c234ce5b4e9f32973cc14384445a68dee437b655dbadddd513d,
      0x173e56269b68dc2bdf5b409a45e4efd7f55ce3a9c1367e217932675ca3ef8a8b,
      0x30d056957683dfe0c3e289ea1c2304b19b5c09c17cabbb3a0464cd14463f41c7,
      0x15e1a1fe8c700581e40b89463c83241f40e566d878d1b28802ad2bfd878f901],
    [0x1d3f53a474f8e375569848bc7b402902ad82ce1cac11d4321c4352d4a2d31408,
      0x173e56269b68dc2bdf5b409a45e4efd7f55ce3a9c1367e217932675ca3ef8a8b,
      0x30d056957683dfe0c3e289ea1c2304b19b5c09c17cabbb3a0464cd14463f41c7,
      0x15e1a1fe8c700581e40b89463c83241f40e566d878d1b28802ad2bfd878f901],
    [0x2,
      0x11f4976cde2d797fccb9514e3858c906cbbd9f5e520f003c71c209c80725abd1,
      0xd99ab62023d6fd9ea55ea13969670fc9d96d06a78b6c6b73e5b80d29551c508,
      0x15e1a1fe8c700581e40b89463c83241f40e566d878d1b28802ad2bfd878f901],
    [0x2,
      0x11f4976cde2d797fccb9514e3858c906cbbd9f5e520f003c71c209c80725abd1,
      0xd99ab62023d6fd9ea55ea13969670fc9d96d06a78b6c6b73e5b80d29551c508,
      0x15e1a1fe8c700581e40b89463c83241f40e566d878d1b28802ad2bfd878f901],
    [0x2,
      0x11f4976cde2d797fccb9514e3858c906cbbd9f5e520f003c71c209c80725abd1,
      0xd99ab62023d6fd9ea55ea13969670fc9d96d06a78b6c6b73e5b80d29551c508,
      0x15e1a1fe8c700581e40b89463c83241f40e566d878d1b28802ad2bfd878f901],
    [0x2,
      0x11f4976cde2d797fccb9514e3858c906cbbd9f5e520f003c71c209c80725abd1,
      0xd99ab62023d6fd9ea55ea13969670fc9d96d06a78b6c6b73e5b80d29551c508,
      0x15e1a1fe8c700581e40b89463c83241f40e566d878d1b28802ad2bfd878f901]]
  root := 0x1adf35e4484b6649764a7cf45c745b090b55bafff72817500d14d3b562139563

/-- `test_vectors/merkle_path.rs:5326-5768`. -/
def merkle12 : MerkleVector where
  leaves := [0xdf89ad556370877d4f76a993d20c7e81393fdb51d55d7a8f5621d6ad566c13d,
    0x3c3d90941de0381afbd58755031ab0e9e1c2ef575a3dfade311eba7f2f225c49,
    0x8a068f473f4b432ac976676b3f2fe293ee50f795e53798b097146eb155388e2,
    0x11af021ae73c8612bdedff3959747e45905ebc9625e51124c0f0b9ec3222194b,
    0x3001daa5b88ccbce73cf5b35f3197dd1b3ca29c1bc8d0bf5389d7842465d4105,
    0x15d75dec41535a4f2aaaf5f7b0d44ccbc62690d382dc70265770a23639f15271,
    0x880f879cdb5cf58a1cfeed90926ceaf1b2a86218c1c645f3f73fa2add2f6f40,
    0x3f798633c14a37f830bdc61862b5ceaa4f3137406065ecca73dffb9c23538c86,
    0x650e94996707a47cebeb5875b0edfa1b1e1006c94444ada0cbc03ad80fba921,
    0x8fa156f808478d923818206ea4024195a62689eff1af26b5c82fa96952ed626,
    0x1d3f53a474f8e375569848bc7b402902ad82ce1cac11d4321c4352d4a2d31408,
    0x17102339af296c234ce5b4e9f32973cc14384445a68dee437b655dbadddd513d,
    0x343144573698bf493ea087f3074670904d82d9298070e19157f4857c35236c73,
    0x2,
    0x2,
    0x2]
  paths := [[0x3c3d90941de0381afbd58755031ab0e9e1c2ef575a3dfade311eba7f2f225c49,
      0x1cb7f6c331e745e76d7201cf0d417a3a9db397514074fd53576696aaa40dee11,
      0x3de79d7680051c0dddcb3fd4f6d98b160a65bae23127bd4ccf21f9843b05cd74,
      0xdf8fd5abd3f0c06c88f2caad949b47a7d4b1cd8c5d4421b0e30886ba7ebc962],
    [0xdf89ad556370877d4f76a993d20c7e81393fdb51d55d7a8f5621d6ad566c13d,
      0x1cb7f6c331e745e76d7201cf0d417a3a9db397514074fd53576696aaa40dee11,
      0x3de79d7680051c0dddcb3fd4f6d98b160a65bae23127bd4ccf21f9843b05cd74,
      0xdf8fd5abd3f0c06c88f2caad949b47a7d4b1cd8c5d4421b0e30886ba7ebc962],
    [0x11af021ae73c8612bdedff3959747e45905ebc9625e51124c0f0b9ec3222194b,
      0x41659a0354b30ce61cffb6ec1555d04285f0b9e38d3cabb958c92200aa0c300,
      0x3de79d7680051c0dddcb3fd4f6d98b160a65bae23127bd4ccf21f9843b05cd74,
      0xdf8fd5abd3f0c06c88f2caad949b47a7d4b1cd8c5d4421b0e30886ba7ebc962],
    [0x8a068f473f4b432ac976676b3f2fe293ee50f795e53798b097146eb155388e2,
      0x41659a0354b30ce61cffb6ec1555d04285f0b9e38d3cabb958c92200aa0c300,
      0x3de79d7680051c0dddcb3fd4f6d98b160a65bae23127bd4ccf21f9843b05cd74,
      0xdf8fd5abd3f0c06c88f2caad949b47a7d4b1cd8c5d4421b0e30886ba7ebc962],
    [0x15d75dec41535a4f2aaaf5f7b0d44ccbc62690d382dc70265770a23639f15271,
      0x39c9c32ce6c9539f13755f30cb6729c4e6a3938f8c96133a264f4624daedba8b,
      0x196987ef2b5736846a40f993d04007a576c9747081f33ad99b813cf36e1b31c9,
      0xdf8fd5abd3f0c06c88f2caad949b47a7d4b1cd8c5d4421b0e30886ba7ebc962],
    [0x3001daa5b88ccbce73cf5b35f3197dd1b3ca29c1bc8d0bf5389d7842465d4105,
      0x39c9c32ce6c9539f13755f30cb6729c4e6a3938f8c96133a264f4624daedba8b,
      0x196987ef2b5736846a40f993d04007a576c9747081f33ad99b813cf36e1b31c9,
      0xdf8fd5abd3f0c06c88f2caad949b47a7d4b1cd8c5d4421b0e30886ba7ebc962],
    [0x3f798633c14a37f830bdc61862b5ceaa4f3137406065ecca73dffb9c23538c86,
      0x2dcc91c76e5e024202d60967e57fa7d6945445ebb350444e186218e0f83a0f65,
      0x196987ef2b5736846a40f993d04007a576c9747081f33ad99b813cf36e1b31c9,
      0xdf8fd5abd3f0c06c88f2caad949b47a7d4b1cd8c5d4421b0e30886ba7ebc962],
    [0x880f879cdb5cf58a1cfeed90926ceaf1b2a86218c1c645f3f73fa2add2f6f40,
      0x2dcc91c76e5e024202d60967e57fa7d6945445ebb350444e186218e0f83a0f65,
      0x196987ef2b5736846a40f993d04007a576c9747081f33ad99b813cf36e1b31c9,
      0xdf8fd5abd3f0c06c88f2caad949b47a7d4b1cd8c5d4421b0e30886ba7ebc962],
    [0x8fa156f808478d923818206ea4024195a62689eff1af26b5c82fa96952ed626,
      0x284192abf4ab3e08dfac0c8d9eecbe99150387f78db99c7831ed74f61f4f0946,
      0x3c3837cda0e310038c65e865f6685fabd34d29ddcef82eaa7fb53897270e2a6f,
      0x15e1a1fe8c700581e40b89463c83241f40e566d878d1b28802ad2bfd878f901],
    [0x650e94996707a47cebeb5875b0edfa1b1e1006c94444ada0cbc03ad80fba921,
      0x284192abf4ab3e08dfac0c8d9eecbe99150387f78db99c7831ed74f61f4f0946,
      0x3c3837cda0e310038c65e865f6685fabd34d29ddcef82eaa7fb53897270e2a6f,
      0x15e1a1fe8c700581e40b89463c83241f40e566d878d1b28802ad2bfd878f901],
    [0x17102339af296c234ce5b4e9f32973cc14384445a68dee437b655dbadddd513d,
      0x173e56269b68dc2bdf5b409a45e4efd7f55ce3a9c1367e217932675ca3ef8a8b,
      0x3c3837cda0e310038c65e865f6685fabd34d29ddcef82eaa7fb53897270e2a6f,
      0x15e1a1fe8c700581e40b89463c83241f40e566d878d1b28802ad2bfd878f901],
    [0x1d3f53a474f8e375569848bc7b402902ad82ce1cac11d4321c4352d4a2d31408,
      0x173e56269b68dc2bdf5b409a45e4efd7f55ce3a9c1367e217932675ca3ef8a8b,
      0x3c3837cda0e310038c65e865f6685fabd34d29ddcef82eaa7fb53897270e2a6f,
      0x15e1a1fe8c700581e40b89463c83241f40e566d878d1b28802ad2bfd878f901],
    [0x2,
      0x11f4976cde2d797fccb9514e3858c906cbbd9f5e520f003c71c209c80725abd1,
      0xd99ab62023d6fd9ea55ea13969670fc9d96d06a78b6c6b73e5b80d29551c508,
      0x15e1a1fe8c700581e40b89463c83241f40e566d878d1b28802ad2bfd878f901],
    [0x343144573698bf493ea087f3074670904d82d9298070e19157f4857c35236c73,
      0x11f4976cde2d797fccb9514e3858c906cbbd9f5e520f003c71c209c80725abd1,
      0xd99ab62023d6fd9ea55ea13969670fc9d96d06a78b6c6b73e5b80d29551c508,
      0x15e1a1fe8c700581e40b89463c83241f40e566d878d1b28802ad2bfd878f901],
    [0x2,
      0x1996237becc10d2d26538148fd5f5b3c9d0b24495fd0dfee7959385394be577c,
      0xd99ab62023d6fd9ea55ea13969670fc9d96d06a78b6c6b73e5b80d29551c508,
      0x15e1a1fe8c700581e40b89463c83241f40e566d878d1b28802ad2bfd878f901],
    [0x2,
      0x1996237becc10d2d26538148fd5f5b3c9d0b24495fd0dfee7959385394be577c,
      0xd99ab62023d6fd9ea55ea13969670fc9d96d06a78b6c6b73e5b80d29551c508,
      0x15e1a1fe8c700581e40b89463c83241f40e566d878d1b28802ad2bfd878f901]]
  root := 0x35390aedb1c94e55f92326e5dbadfd1dd0f1df6cce7b2904cb1d2e1628157eba

/-- `test_vectors/merkle_path.rs:5769-6211`. -/
def merkle13 : MerkleVector where
  leaves := [0xdf89ad556370877d4f76a993d20c7e81393fdb51d55d7a8f5621d6ad566c13d,
    0x3c3d90941de0381afbd58755031ab0e9e1c2ef575a3dfade311eba7f2f225c49,
    0x8a068f473f4b432ac976676b3f2fe293ee50f795e53798b097146eb155388e2,
    0x11af021ae73c8612bdedff3959747e45905ebc9625e51124c0f0b9ec3222194b,
    0x3001daa5b88ccbce73cf5b35f3197dd1b3ca29c1bc8d0bf5389d7842465d4105,
    0x15d75dec41535a4f2aaaf5f7b0d44ccbc62690d382dc70265770a23639f15271,
    0x880f879cdb5cf58a1cfeed90926ceaf1b2a86218c1c645f3f73fa2add2f6f40,
    0x3f798633c14a37f830bdc61862b5ceaa4f3137406065ecca73dffb9c23538c86,
    0x650e94996707a47cebeb5875b0edfa1b1e1006c94444ada0cbc03ad80fba921,
    0x8fa156f808478d923818206ea4024195a62689eff1af26b5c82fa96952ed626,
    0x1d3f53a474f8e375569848bc7b402902ad82ce1cac11d4321c4352d4a2d31408,
    0x17102339af296c234ce5b4e9f32973cc14384445a68dee437b655dbadddd513d,
    0x343144573698bf493ea087f3074670904d82d9298070e19157f4857c35236c73,
    0x1be377068ec85f757ef770d6cf3a554e4b14ecc16b6b01abaef1f6ddac36050c,
    0x2,
    0x2]
  paths := [[0x3c3d90941de0381afbd58755031ab0e9e1c2ef575a3dfade311eba7f2f225c49,
      0x1cb7f6c331e745e76d7201cf0d417a3a9db397514074fd53576696aaa40dee11,
      0x3de79d7680051c0dddcb3fd4f6d98b160a65bae23127bd4ccf21f9843b05cd74,
      0x2319330dac3c4046b76a4c2be31a69e40adbc9f72b145ca28ea51bc0eb93c6ef],
    [0xdf89ad556370877d4f76a993d20c7e81393fdb51d55d7a8f5621d6ad566c13d,
      0x1cb7f6c331e745e76d7201cf0d417a3a9db397514074fd53576696aaa40dee11,
      0x3de79d7680051c0dddcb3fd4f6d98b160a65bae23127bd4ccf21f9843b05cd74,
      0x2319330dac3c4046b76a4c2be31a69e40adbc9f72b145ca28ea51bc0eb93c6ef],
    [0x11af021ae73c8612bdedff3959747e45905ebc9625e51124c0f0b9ec3222194b,
      0x41659a0354b30ce61cffb6ec1555d04285f0b9e38d3cabb958c92200aa0c300,
      0x3de79d7680051c0dddcb3fd4f6d98b160a65bae23127bd4ccf21f9843b05cd74,
      0x2319330dac3c4046b76a4c2be31a69e40adbc9f72b145ca28ea51bc0eb93c6ef],
    [0x8a068f473f4b432ac976676b3f2fe293ee50f795e53798b097146eb155388e2,
      0x41659a0354b30ce61cffb6ec1555d04285f0b9e38d3cabb958c92200aa0c300,
      0x3de79d7680051c0dddcb3fd4f6d98b160a65bae23127bd4ccf21f9843b05cd74,
      0x2319330dac3c4046b76a4c2be31a69e40adbc9f72b145ca28ea51bc0eb93c6ef],
    [0x15d75dec41535a4f2aaaf5f7b0d44ccbc62690d382dc70265770a23639f15271,
      0x39c9c32ce6c9539f13755f30cb6729c4e6a3938f8c96133a264f4624daedba8b,
      0x196987ef2b5736846a40f993d04007a576c9747081f33ad99b813cf36e1b31c9,
      0x2319330dac3c4046b76a4c2be31a69e40adbc9f72b145ca28ea51bc0eb93c6ef],
    [0x3001daa5b88ccbce73cf5b35f3197dd1b3ca29c1bc8d0bf5389d7842465d4105,
      0x39c9c32ce6c9539f13755f30cb6729c4e6a3938f8c96133a264f4624daedba8b,
      0x196987ef2b5736846a40f993d04007a576c9747081f33ad99b813cf36e1b31c9,
      0x2319330dac3c4046b76a4c2be31a69e40adbc9f72b145ca28ea51bc0eb93c6ef],
    [0x3f798633c14a37f830bdc61862b5ceaa4f3137406065ecca73dffb9c23538c86,
      0x2dcc91c76e5e024202d60967e57fa7d6945445ebb350444e186218e0f83a0f65,
      0x196987ef2b5736846a40f993d04007a576c9747081f33ad99b813cf36e1b31c9,
      0x2319330dac3c4046b76a4c2be31a69e40adbc9f72b145ca28ea51bc0eb93c6ef],
    [0x880f879cdb5cf58a1cfeed90926ceaf1b2a86218c1c645f3f73fa2add2f6f40,
      0x2dcc91c76e5e024202d60967e57fa7d6945445ebb350444e186218e0f83a0f65,
      0x196987ef2b5736846a40f993d04007a576c9747081f33ad99b813cf36e1b31c9,
      0x2319330dac3c4046b76a4c2be31a69e40adbc9f72b145ca28ea51bc0eb93c6ef],
    [0x8fa156f808478d923818206ea4024195a62689eff1af26b5c82fa96952ed626,
      0x284192abf4ab3e08dfac0c8d9eecbe99150387f78db99c7831ed74f61f4f0946,
      0x2f8ee3b63a5ce682dff632efbb835eb4fb6b63378feec7f091b1fa591400d4d6,
      0x15e1a1fe8c700581e40b89463c83241f40e566d878d1b28802ad2bfd878f901],
    [0x650e94996707a47cebeb5875b0edfa1b1e1006c94444ada0cbc03ad80fba921,
      0x284192abf4ab3e08dfac0c8d9eecbe99150387f78db99c7831ed74f61f4f0946,
      0x2f8ee3b63a5ce682dff632efbb835eb4fb6b63378feec7f091b1fa591400d4d6,
      0x15e1a1fe8c700581e40b89463c83241f40e566d878d1b28802ad2bfd878f901],
    [0x17102339af296c234ce5b4e9f32973cc14384445a68dee437b655dbadddd513d,
      0x173e56269b68dc2bdf5b409a45e4efd7f55ce3a9c1367e217932675ca3ef8a8b,
      0x2f8ee3b63a5ce682dff632efbb835eb4fb6b63378feec7f091b1fa591400d4d6,
      0x15e1a1fe8c700581e40b89463c83241f40e566d878d1b28802ad2bfd878f901],
    [0x1d3f53a474f8e375569848bc7b402902ad82ce1cac11d4321c4352d4a2d31408,
      0x173e56269b68dc2bdf5b409a45e4efd7f55ce3a9c1367e217932675ca3ef8a8b,
      0x2f8ee3b63a5ce682dff632efbb835eb4fb6b63378feec7f091b1fa591400d4d6,
      0x15e1a1fe8c700581e40b89463c83241f40e566d878d1b28802ad2bfd878f901],
    [0x1be377068ec85f757ef770d6cf3a554e4b14ecc16b6b01abaef1f6ddac36050c,
      0x11f4976cde2d797fccb9514e3858c906cbbd9f5e520f003c71c209c80725abd1,
      0xd99ab62023d6fd9ea55ea13969670fc9d96d06a78b6c6b73e5b80d29551c508,
      0x15e1a1fe8c700581e40b89463c83241f40e566d878d1b28802ad2bfd878f901],
    [0x343144573698bf493ea087f3074670904d82d9298070e19157f4857c35236c73,
      0x11f4976cde2d797fccb9514e3858c906cbbd9f5e520f003c71c209c80725abd1,
      0xd99ab62023d6fd9ea55ea13969670fc9d96d06a78b6c6b73e5b80d29551c508,
      0x15e1a1fe8c700581e40b89463c83241f40e566d878d1b28802ad2bfd878f901],
    [0x2,
      0x3fc67a0ec009dd4b5bc0876229e0ecbc6a56143a5eade3de2cfe0be8f85072df,
      0xd99ab62023d6fd9ea55ea13969670fc9d96d06a78b6c6b73e5b80d29551c508,
      0x15e1a1fe8c700581e40b89463c83241f40e566d878d1b28802ad2bfd878f901],
    [0x2,
      0x3fc67a0ec009dd4b5bc0876229e0ecbc6a56143a5eade3de2cfe0be8f85072df,
      0xd99ab62023d6fd9ea55ea13969670fc9d96d06a78b6c6b73e5b80d29551c508,
      0x15e1a1fe8c700581e40b89463c83241f40e566d878d1b28802ad2bfd878f901]]
  root := 0x3f24cdeb8acfbb547f66217c337ce47fd4cc672578a4b0b340297ba0e4f420b2

/-- `test_vectors/merkle_path.rs:6212-6654`. -/
def merkle14 : MerkleVector where
  leaves := [0xdf89ad556370877d4f76a993d20c7e81393fdb51d55d7a8f5621d6ad566c13d,
    0x3c3d90941de0381afbd58755031ab0e9e1c2ef575a3dfade311eba7f2f225c49,
    0x8a068f473f4b432ac976676b3f2fe293ee50f795e53798b097146eb155388e2,
    0x11af021ae73c8612bdedff3959747e45905ebc9625e51124c0f0b9ec3222194b,
    0x3001daa5b88ccbce73cf5b35f3197dd1b3ca29c1bc8d0bf5389d7842465d4105,
    0x15d75dec41535a4f2aaaf5f7b0d44ccbc62690d382dc70265770a23639f15271,
    0x880f879cdb5cf58a1cfeed90926ceaf1b2a86218c1c645f3f73fa2add2f6f40,
    0x3f798633c14a37f830bdc61862b5ceaa4f3137406065ecca73dffb9c23538c86,
    0x650e94996707a47cebeb5875b0edfa1b1e1006c94444ada0cbc03ad80fba921,
    0x8fa156f808478d923818206ea4024195a62689eff1af26b5c82fa96952ed626,
    0x1d3f53a474f8e375569848bc7b402902ad82ce1cac11d4321c4352d4a2d31408,
    0x17102339af296c234ce5b4e9f32973cc14384445a68dee437b655dbadddd513d,
    0x343144573698bf493ea087f3074670904d82d9298070e19157f4857c35236c73,
    0x1be377068ec85f757ef770d6cf3a554e4b14ecc16b6b01abaef1f6ddac36050c,
    0x258d487b30c26bbc014f91150eb34c43ffb1c2419d78e38f956877304eb459a4,
    0x2]
  paths := [[0x3c3d90941de0381afbd58755031ab0e9e1c2ef575a3dfade311eba7f2f225c49,
      0x1cb7f6c331e745e76d7201cf0d417a3a9db397514074fd53576696aaa40dee11,
      0x3de79d7680051c0dddcb3fd4f6d98b160a65bae23127bd4ccf21f9843b05cd74,
      0x34e8009d9531bd8383aa7880db329e177686a31a46020806c886a8cbccdc7035],
    [0xdf89ad556370877d4f76a993d20c7e81393fdb51d55d7a8f5621d6ad566c13d,
      0x1cb7f6c331e745e76d7201cf0d417a3a9db397514074fd53576696aaa40dee11,
      0x3de79d7680051c0dddcb3fd4f6d98b160a65bae23127bd4ccf21f9843b05cd74,
      0x34e8009d9531bd8383aa7880db329e177686a31a46020806c886a8cbccdc7035],
    [0x11af021ae73c8612bdedff3959747e45905ebc9625e51124c0f0b9ec3222194b,
      0x41659a0354b30ce61cffb6ec1555d04285f0b9e38d3cabb958c92200aa0c300,
      0x3de79d7680051c0dddcb3fd4f6d98b160a65bae23127bd4ccf21f9843b05cd74,
      0x34e8009d9531bd8383aa7880db329e177686a31a46020806c886a8cbccdc7035],
    [0x8a068f473f4b432ac976676b3f2fe293ee50f795e53798b097146eb155388e2,
      0x41659a0354b30ce61cffb6ec1555d04285f0b9e38d3cabb958c92200aa0c300,
      0x3de79d7680051c0dddcb3fd4f6d98b160a65bae23127bd4ccf21f9843b05cd74,
      0x34e8009d9531bd8383aa7880db329e177686a31a46020806c886a8cbccdc7035],
    [0x15d75dec41535a4f2aaaf5f7b0d44ccbc62690d382dc70265770a23639f15271,
      0x39c9c32ce6c9539f13755f30cb6729c4e6a3938f8c96133a264f4624daedba8b,
      0x196987ef2b5736846a40f993d04007a576c9747081f33ad99b813cf36e1b31c9,
      0x34e8009d9531bd8383aa7880db329e177686a31a46020806c886a8cbccdc7035],
    [0x3001daa5b88ccbce73cf5b35f3197dd1b3ca29c1bc8d0bf5389d7842465d4105,
      0x39c9c32ce6c9539f13755f30cb6729c4e6a3938f8c96133a264f4624daedba8b,
      0x196987ef2b5736846a40f993d04007a576c9747081f33ad99b813cf36e1b31c9,
      0x34e8009d9531bd8383aa7880db329e177686a31a46020806c886a8cbccdc7035],
    [0x3f798633c14a37f830bdc61862b5ceaa4f3137406065ecca73dffb9c23538c86,
      0x2dcc91c76e5e024202d60967e57fa7d6945445ebb350444e186218e0f83a0f65,
      0x196987ef2b5736846a40f993d04007a576c9747081f33ad99b813cf36e1b31c9,
      0x34e8009d9531bd8383aa7880db329e177686a31a46020806c886a8cbccdc7035],
    [0x880f879cdb5cf58a1cfeed90926ceaf1b2a86218c1c645f3f73fa2add2f6f40,
      0x2dcc91c76e5e024202d60967e57fa7d6945445ebb350444e186218e0f83a0f65,
      0x196987ef2b5736846a40f993d04007a576c9747081f33ad99b813cf36e1b31c9,
      0x34e8009d9531bd8383aa7880db329e177686a31a46020806c886a8cbccdc7035],
    [0x8fa156f808478d923818206ea4024195a62689eff1af26b5c82fa96952ed626,
      0x284192abf4ab3e08dfac0c8d9eecbe99150387f78db99c7831ed74f61f4f0946,
      0xf661dcb263a1400c852d1c1c9cf62ac06b15f809ab68202877cd0b44d659125,
      0x15e1a1fe8c700581e40b89463c83241f40e566d878d1b28802ad2bfd878f901],
    [0x650e94996707a47cebeb5875b0edfa1b1e1006c94444ada0cbc03ad80fba921,
      0x284192abf4ab3e08dfac0c8d9eecbe99150387f78db99c7831ed74f61f4f0946,
      0xf661dcb263a1400c852d1c1c9cf62ac06b15f809ab68202877cd0b44d659125,
      0x15e1a1fe8c700581e40b89463c83241f40e566d878d1b28802ad2bfd878f901],
    [0x17102339af296c234ce5b4e9f32973cc14384445a68dee437b655dbadddd513d,
      0x173e56269b68dc2bdf5b409a45e4efd7f55ce3a9c1367e217932675ca3ef8a8b,
      0xf661dcb263a1400c852d1c1c9cf62ac06b15f809ab68202877cd0b44d659125,
      0x15e1a1fe8c700581e40b89463c83241f40e566d878d1b28802ad2bfd878f901],
    [0x1d3f53a474f8e375569848bc7b402902ad82ce1cac11d4321c4352d4a2d31408,
      0x173e56269b68dc2bdf5b409a45e4efd7f55ce3a9c1367e217932675ca3ef8a8b,
      0xf661dcb263a1400c852d1c1c9cf62ac06b15f809ab68202877cd0b44d659125,
      0x15e1a1fe8c700581e40b89463c83241f40e566d878d1b28802ad2bfd878f901],
    [0x1be377068ec85f757ef770d6cf3a554e4b14ecc16b6b01abaef1f6ddac36050c,
      0x49da7454f160a008fe6edf4c36cf4e65038e2c555d5bf372ad980a137895377,
      0xd99ab62023d6fd9ea55ea13969670fc9d96d06a78b6c6b73e5b80d29551c508,
      0x15e1a1fe8c700581e40b89463c83241f40e566d878d1b28802ad2bfd878f901],
    [0x343144573698bf493ea087f3074670904d82d9298070e19157f4857c35236c73,
      0x49da7454f160a008fe6edf4c36cf4e65038e2c555d5bf372ad980a137895377,
      0xd99ab62023d6fd9ea55ea13969670fc9d96d06a78b6c6b73e5b80d29551c508,
      0x15e1a1fe8c700581e40b89463c83241f40e566d878d1b28802ad2bfd878f901],
    [0x2,
      0x3fc67a0ec009dd4b5bc0876229e0ecbc6a56143a5eade3de2cfe0be8f85072df,
      0xd99ab62023d6fd9ea55ea13969670fc9d96d06a78b6c6b73e5b80d29551c508,
      0x15e1a1fe8c700581e40b89463c83241f40e566d878d1b28802ad2bfd878f901],
    [0x258d487b30c26bbc014f91150eb34c43ffb1c2419d78e38f956877304eb459a4,
      0x3fc67a0ec009dd4b5bc0876229e0ecbc6a56143a5eade3de2cfe0be8f85072df,
      0xd99ab62023d6fd9ea55ea13969670fc9d96d06a78b6c6b73e5b80d29551c508,
      0x15e1a1fe8c700581e40b89463c83241f40e566d878d1b28802ad2bfd878f901]]
  root := 0x2529d217b78c5da7967951a6ca6b16da5737261b81975fa7b986e8ca20060463

/-- `test_vectors/merkle_path.rs:6655-7097`. -/
def merkle15 : MerkleVector where
  leaves := [0xdf89ad556370877d4f76a993d20c7e81393fdb51d55d7a8f5621d6ad566c13d,
    0x3c3d90941de0381afbd58755031ab0e9e1c2ef575a3dfade311eba7f2f225c49,
    0x8a068f473f4b432ac976676b3f2fe293ee50f795e53798b097146eb155388e2,
    0x11af021ae73c8612bdedff3959747e45905ebc9625e51124c0f0b9ec3222194b,
    0x3001daa5b88ccbce73cf5b35f3197dd1b3ca29c1bc8d0bf5389d7842465d4105,
    0x15d75dec41535a4f2aaaf5f7b0d44ccbc62690d382dc70265770a23639f15271,
    0x880f879cdb5cf58a1cfeed90926ceaf1b2a86218c1c645f3f73fa2add2f6f40,
    0x3f798633c14a37f830bdc61862b5ceaa4f3137406065ecca73dffb9c23538c86,
    0x650e94996707a47cebeb5875b0edfa1b1e1006c94444ada0cbc03ad80fba921,
    0x8fa156f808478d923818206ea4024195a62689eff1af26b5c82fa96952ed626,
    0x1d3f53a474f8e375569848bc7b402902ad82ce1cac11d4321c4352d4a2d31408,
    0x17102339af296c234ce5b4e9f32973cc14384445a68dee437b655dbadddd513d,
    0x343144573698bf493ea087f3074670904d82d9298070e19157f4857c35236c73,
    0x1be377068ec85f757ef770d6cf3a554e4b14ecc16b6b01abaef1f6ddac36050c,
    0x258d487b30c26bbc014f91150eb34c43ffb1c2419d78e38f956877304eb459a4,
    0x1c71e1e5400a9db929bf96f35940cd6945b906e82fb0f612d7ffa40e38b7d756]
  paths := [[0x3c3d90941de0381afbd58755031ab0e9e1c2ef575a3dfade311eba7f2f225c49,
      0x1cb7f6c331e745e76d7201cf0d417a3a9db397514074fd53576696aaa40dee11,
      0x3de79d7680051c0dddcb3fd4f6d98b160a65bae23127bd4ccf21f9843b05cd74,
      0x2206649d4f212735a364ad1bc159a8d54698b5afd2954ad3de16965894338c7e],
    [0xdf89ad556370877d4f76a993d20c7e81393fdb51d55d7a8f5621d6ad566c13d,
      0x1cb7f6c331e745e76d7201cf0d417a3a9db397514074fd53576696aaa40dee11,
      0x3de79d7680051c0dddcb3fd4f6d98b160a65bae23127bd4ccf21f9843b05cd74,
      0x2206649d4f212735a364ad1bc159a8d54698b5afd2954ad3de16965894338c7e],
    [0x11af021ae73c8612bdedff3959747e45905ebc9625e51124c0f0b9ec3222194b,
      0x41659a0354b30ce61cffb6ec1555d04285f0b9e38d3cabb958c92200aa0c300,
      0x3de79d7680051c0dddcb3fd4f6d98b160a65bae23127bd4ccf21f9843b05cd74,
      0x2206649d4f212735a364ad1bc159a8d54698b5afd2954ad3de16965894338c7e],
    [0x8a068f473f4b432ac976676b3f2fe293ee50f795e53798b097146eb155388e2,
      0x41659a0354b30ce61cffb6ec1555d04285f0b9e38d3cabb958c92200aa0c300,
      0x3de79d7680051c0dddcb3fd4f6d98b160a65bae23127bd4ccf21f9843b05cd74,
      0x2206649d4f212735a364ad1bc159a8d54698b5afd2954ad3de16965894338c7e],
    [0x15d75dec41535a4f2aaaf5f7b0d44ccbc62690d382dc70265770a23639f15271,
      0x39c9c32ce6c9539f13755f30cb6729c4e6a3938f8c96133a264f4624daedba8b,
      0x196987ef2b5736846a40f993d04007a576c9747081f33ad99b813cf36e1b31c9,
      0x2206649d4f212735a364ad1bc159a8d54698b5afd2954ad3de16965894338c7e],
    [0x3001daa5b88ccbce73cf5b35f3197dd1b3ca29c1bc8d0bf5389d7842465d4105,
      0x39c9c32ce6c9539f13755f30cb6729c4e6a3938f8c96133a264f4624daedba8b,
      0x196987ef2b5736846a40f993d04007a576c9747081f33ad99b813cf36e1b31c9,
      0x2206649d4f212735a364ad1bc159a8d54698b5afd2954ad3de16965894338c7e],
    [0x3f798633c14a37f830bdc61862b5ceaa4f3137406065ecca73dffb9c23538c86,
      0x2dcc91c76e5e024202d60967e57fa7d6945445ebb350444e186218e0f83a0f65,
      0x196987ef2b5736846a40f993d04007a576c9747081f33ad99b813cf36e1b31c9,
      0x2206649d4f212735a364ad1bc159a8d54698b5afd2954ad3de16965894338c7e],
    [0x880f879cdb5cf58a1cfeed90926ceaf1b2a86218c1c645f3f73fa2add2f6f40,
      0x2dcc91c76e5e024202d60967e57fa7d6945445ebb350444e186218e0f83a0f65,
      0x196987ef2b5736846a40f993d04007a576c9747081f33ad99b813cf36e1b31c9,
      0x2206649d4f212735a364ad1bc159a8d54698b5afd2954ad3de16965894338c7e],
    [0x8fa156f808478d923818206ea4024195a62689eff1af26b5c82fa96952ed626,
      0x284192abf4ab3e08dfac0c8d9eecbe99150387f78db99c7831ed74f61f4f0946,
      0x31fa1c9d9c91d84d5788e8cc789b5891bff65618f18738c1fe29621a44a31b87,
      0x15e1a1fe8c700581e40b89463c83241f40e566d878d1b28802ad2bfd878f901],
    [0x650e94996707a47cebeb5875b0edfa1b1e1006c94444ada0cbc03ad80fba921,
      0x284192abf4ab3e08dfac0c8d9eecbe99150387f78db99c7831ed74f61f4f0946,
      0x31fa1c9d9c91d84d5788e8cc789b5891bff65618f18738c1fe29621a44a31b87,
      0x15e1a1fe8c700581e40b89463c83241f40e566d878d1b28802ad2bfd878f901],
    [0x17102339af296c234ce5b4e9f32973cc14384445a68dee437b655dbadddd513d,
      0x173e56269b68dc2bdf5b409a45e4efd7f55ce3a9c1367e217932675ca3ef8a8b,
      0x31fa1c9d9c91d84d5788e8cc789b5891bff65618f18738c1fe29621a44a31b87,
      0x15e1a1fe8c700581e40b89463c83241f40e566d878d1b28802ad2bfd878f901],
    [0x1d3f53a474f8e375569848bc7b402902ad82ce1cac11d4321c4352d4a2d31408,
      0x173e56269b68dc2bdf5b409a45e4efd7f55ce3a9c1367e217932675ca3ef8a8b,
      0x31fa1c9d9c91d84d5788e8cc789b5891bff65618f18738c1fe29621a44a31b87,
      0x15e1a1fe8c700581e40b89463c83241f40e566d878d1b28802ad2bfd878f901],
    [0x1be377068ec85f757ef770d6cf3a554e4b14ecc16b6b01abaef1f6ddac36050c,
      0x271d57b248171415bda6d149ec5efc4e0cce41245ec69ee66853227b78073d74,
      0xd99ab62023d6fd9ea55ea13969670fc9d96d06a78b6c6b73e5b80d29551c508,
      0x15e1a1fe8c700581e40b89463c83241f40e566d878d1b28802ad2bfd878f901],
    [0x343144573698bf493ea087f3074670904d82d9298070e19157f4857c35236c73,
      0x271d57b248171415bda6d149ec5efc4e0cce41245ec69ee66853227b78073d74,
      0xd99ab62023d6fd9ea55ea13969670fc9d96d06a78b6c6b73e5b80d29551c508,
      0x15e1a1fe8c700581e40b89463c83241f40e566d878d1b28802ad2bfd878f901],
    [0x1c71e1e5400a9db929bf96f35940cd6945b906e82fb0f612d7ffa40e38b7d756,
      0x3fc67a0ec009dd4b5bc0876229e0ecbc6a56143a5eade3de2cfe0be8f85072df,
      0xd99ab62023d6fd9ea55ea13969670fc9d96d06a78b6c6b73e5b80d29551c508,
      0x15e1a1fe8c700581e40b89463c83241f40e566d878d1b28802ad2bfd878f901],
    [0x258d487b30c26bbc014f91150eb34c43ffb1c2419d78e38f956877304eb459a4,
      0x3fc67a0ec009dd4b5bc0876229e0ecbc6a56143a5eade3de2cfe0be8f85072df,
      0xd99ab62023d6fd9ea55ea13969670fc9d96d06a78b6c6b73e5b80d29551c508,
      0x15e1a1fe8c700581e40b89463c83241f40e566d878d1b28802ad2bfd878f901]]
  root := 0x252baa7edf6fd1ea7a69388a6f4d28c569a9d5b9eccd5df3137c08ab45979acf

/-- `test_vectors/merkle_path.rs:7-`: all vectors. -/
def merkleVectors : List MerkleVector :=
  [merkle0, merkle1, merkle2, merkle3, merkle4, merkle5, merkle6, merkle7, merkle8, merkle9, merkle10, merkle11, merkle12, merkle13, merkle14, merkle15]

/-- `tree.rs:356-382`: the commitments appended by `anchor_incremental`. -/
def incrementalLeaves : List ℕ :=
  [0xa3916ea6f8523326becbdb5f94046cbe1e1759ac94ea49990223399f45c1368,
   0xe2fe701699512f65caf64ea81ecf0c07d2026671d73a530b49829fb08503178,
   0xac4adb67bb74317eed1d14092c878f5e677345d101430b496c5303a058894ee,
   0x1aac7a167bf1c6d7fc3ed146f44d4d836046263fca5b8c7663f30165f0e7dc9d,
   0x21a1533fd53b162699d40d283bdf6c8a190fffba9b53a49e765f6f1c811686bd]

/-- `tree.rs:386-390`: the anchor `anchor_incremental` expects. -/
def incrementalAnchor : ℕ := 0xe7f529ccc28cf287b132d64d0f75fc60c2e642e2891ebcd8b3f87602dbe75c8

/-- All nodes of the tree of `merkle0`, by height, and the empty root of each height (computed outside; checked below). -/
def merkleLevels0 : List (List ℕ × ℕ) :=
  [([0xdf89ad556370877d4f76a993d20c7e81393fdb51d55d7a8f5621d6ad566c13d,
     0x2,
     0x2,
     0x2,
     0x2,
     0x2,
     0x2,
     0x2,
     0x2,
     0x2,
     0x2,
     0x2,
     0x2,
     0x2,
     0x2,
     0x2],
    0x2),
   ([0x20e046e1de7bcefb6cf8578ee02d5862296a3d60b14f5f24b3334950461e9df7,
     0x11f4976cde2d797fccb9514e3858c906cbbd9f5e520f003c71c209c80725abd1,
     0x11f4976cde2d797fccb9514e3858c906cbbd9f5e520f003c71c209c80725abd1,
     0x11f4976cde2d797fccb9514e3858c906cbbd9f5e520f003c71c209c80725abd1,
     0x11f4976cde2d797fccb9514e3858c906cbbd9f5e520f003c71c209c80725abd1,
     0x11f4976cde2d797fccb9514e3858c906cbbd9f5e520f003c71c209c80725abd1,
     0x11f4976cde2d797fccb9514e3858c906cbbd9f5e520f003c71c209c80725abd1,
     0x11f4976cde2d797fccb9514e3858c906cbbd9f5e520f003c71c209c80725abd1],
    0x11f4976cde2d797fccb9514e3858c906cbbd9f5e520f003c71c209c80725abd1),
   ([0x1c06553d2931d397c846af848358624c0d1e99b2286093cbe1a6692c1891d39e,
     0x30d056957683dfe0c3e289ea1c2304b19b5c09c17cabbb3a0464cd14463f41c7,
     0x30d056957683dfe0c3e289ea1c2304b19b5c09c17cabbb3a0464cd14463f41c7,
     0x30d056957683dfe0c3e289ea1c2304b19b5c09c17cabbb3a0464cd14463f41c7],
    0x30d056957683dfe0c3e289ea1c2304b19b5c09c17cabbb3a0464cd14463f41c7),
   ([0x2d2fab1471087e61718ea3b39a747e1b0be66d364dbc0e9620f8cb4a94744b6e,
     0x44279ac8f3c57b2aa1638aca9d27eda6a7df26d8174ec50fde5537739fc1121],
    0x44279ac8f3c57b2aa1638aca9d27eda6a7df26d8174ec50fde5537739fc1121),
   ([0xd613c69bfed58c96f6197e54e7f8d17fc96bd9dc6c26efdcc2ecaaea64c0c40],
    0x31b4ea3aced9464a3daba756ae9945b86407f3ef514c38f2d4645cb4fefb6a80)]

/-- All nodes of the tree of `merkle1`, by height, and the empty root of each height (computed outside; checked below). -/
def merkleLevels1 : List (List ℕ × ℕ) :=
  [([0xdf89ad556370877d4f76a993d20c7e81393fdb51d55d7a8f5621d6ad566c13d,
     0x3c3d90941de0381afbd58755031ab0e9e1c2ef575a3dfade311eba7f2f225c49,
     0x2,
     0x2,
     0x2,
     0x2,
     0x2,
     0x2,
     0x2,
     0x2,
     0x2,
     0x2,
     0x2,
     0x2,
     0x2,
     0x2],
    0x2),
   ([0x41659a0354b30ce61cffb6ec1555d04285f0b9e38d3cabb958c92200aa0c300,
     0x11f4976cde2d797fccb9514e3858c906cbbd9f5e520f003c71c209c80725abd1,
     0x11f4976cde2d797fccb9514e3858c906cbbd9f5e520f003c71c209c80725abd1,
     0x11f4976cde2d797fccb9514e3858c906cbbd9f5e520f003c71c209c80725abd1,
     0x11f4976cde2d797fccb9514e3858c906cbbd9f5e520f003c71c209c80725abd1,
     0x11f4976cde2d797fccb9514e3858c906cbbd9f5e520f003c71c209c80725abd1,
     0x11f4976cde2d797fccb9514e3858c906cbbd9f5e520f003c71c209c80725abd1,
     0x11f4976cde2d797fccb9514e3858c906cbbd9f5e520f003c71c209c80725abd1],
    0x11f4976cde2d797fccb9514e3858c906cbbd9f5e520f003c71c209c80725abd1),
   ([0x1174fcdf3a4b593308c13861bae2e3376221caac8d6993a477d2a0e8a310a210,
     0x30d056957683dfe0c3e289ea1c2304b19b5c09c17cabbb3a0464cd14463f41c7,
     0x30d056957683dfe0c3e289ea1c2304b19b5c09c17cabbb3a0464cd14463f41c7,
     0x30d056957683dfe0c3e289ea1c2304b19b5c09c17cabbb3a0464cd14463f41c7],
    0x30d056957683dfe0c3e289ea1c2304b19b5c09c17cabbb3a0464cd14463f41c7),
   ([0x2e02eb04878e092621649895b2ecc74ad51fedf5d98510eb09bf30892c179159,
     0x44279ac8f3c57b2aa1638aca9d27eda6a7df26d8174ec50fde5537739fc1121],
    0x44279ac8f3c57b2aa1638aca9d27eda6a7df26d8174ec50fde5537739fc1121),
   ([0x288363cd10b9f0f2adca43ad370d3e547883ffd80588934cc2ce449bffe4bd5e],
    0x31b4ea3aced9464a3daba756ae9945b86407f3ef514c38f2d4645cb4fefb6a80)]

/-- All nodes of the tree of `merkle2`, by height, and the empty root of each height (computed outside; checked below). -/
def merkleLevels2 : List (List ℕ × ℕ) :=
  [([0xdf89ad556370877d4f76a993d20c7e81393fdb51d55d7a8f5621d6ad566c13d,
     0x3c3d90941de0381afbd58755031ab0e9e1c2ef575a3dfade311eba7f2f225c49,
     0x8a068f473f4b432ac976676b3f2fe293ee50f795e53798b097146eb155388e2,
     0x2,
     0x2,
     0x2,
     0x2,
     0x2,
     0x2,
     0x2,
     0x2,
     0x2,
     0x2,
     0x2,
     0x2,
     0x2],
    0x2),
   ([0x41659a0354b30ce61cffb6ec1555d04285f0b9e38d3cabb958c92200aa0c300,
     0x37bf60ed5183429f24be79a41a90483bee8f11101b27f53116dfa295e761eef9,
     0x11f4976cde2d797fccb9514e3858c906cbbd9f5e520f003c71c209c80725abd1,
     0x11f4976cde2d797fccb9514e3858c906cbbd9f5e520f003c71c209c80725abd1,
     0x11f4976cde2d797fccb9514e3858c906cbbd9f5e520f003c71c209c80725abd1,
     0x11f4976cde2d797fccb9514e3858c906cbbd9f5e520f003c71c209c80725abd1,
     0x11f4976cde2d797fccb9514e3858c906cbbd9f5e520f003c71c209c80725abd1,
     0x11f4976cde2d797fccb9514e3858c906cbbd9f5e520f003c71c209c80725abd1],
    0x11f4976cde2d797fccb9514e3858c906cbbd9f5e520f003c71c209c80725abd1),
   ([0x36ab2c23e504d60b6c75b0eed15ed7d2eaefd23b930f96c5152d3f61d8646d8,
     0x30d056957683dfe0c3e289ea1c2304b19b5c09c17cabbb3a0464cd14463f41c7,
     0x30d056957683dfe0c3e289ea1c2304b19b5c09c17cabbb3a0464cd14463f41c7,
     0x30d056957683dfe0c3e289ea1c2304b19b5c09c17cabbb3a0464cd14463f41c7],
    0x30d056957683dfe0c3e289ea1c2304b19b5c09c17cabbb3a0464cd14463f41c7),
   ([0x13bd42e59554ac00f8f0453952688e45106ce3811f4d56e406a5f647e4843b95,
     0x44279ac8f3c57b2aa1638aca9d27eda6a7df26d8174ec50fde5537739fc1121],
    0x44279ac8f3c57b2aa1638aca9d27eda6a7df26d8174ec50fde5537739fc1121),
   ([0x4eb9efd0afcae069cce146e6e83d707381ccc4bbfe032a177b2f1e8ea2e3093],
    0x31b4ea3aced9464a3daba756ae9945b86407f3ef514c38f2d4645cb4fefb6a80)]

/-- All nodes of the tree of `merkle3`, by height, and the empty root of each height (computed outside; checked below). -/
def merkleLevels3 : List (List ℕ × ℕ) :=
  [([0xdf89ad556370877d4f76a993d20c7e81393fdb51d55d7a8f5621d6ad566c13d,
     0x3c3d90941de0381afbd58755031ab0e9e1c2ef575a3dfade311eba7f2f225c49,
     0x8a068f473f4b432ac976676b3f2fe293ee50f795e53798b097146eb155388e2,
     0x11af021ae73c8612bdedff3959747e45905ebc9625e51124c0f0b9ec3222194b,
     0x2,
     0x2,
     0x2,
     0x2,
     0x2,
     0x2,
     0x2,
     0x2,
     0x2,
     0x2,
     0x2,
     0x2],
    0x2),
   ([0x41659a0354b30ce61cffb6ec1555d04285f0b9e38d3cabb958c92200aa0c300,
     0x1cb7f6c331e745e76d7201cf0d417a3a9db397514074fd53576696aaa40dee11,
     0x11f4976cde2d797fccb9514e3858c906cbbd9f5e520f003c71c209c80725abd1,
     0x11f4976cde2d797fccb9514e3858c906cbbd9f5e520f003c71c209c80725abd1,
     0x11f4976cde2d797fccb9514e3858c906cbbd9f5e520f003c71c209c80725abd1,
     0x11f4976cde2d797fccb9514e3858c906cbbd9f5e520f003c71c209c80725abd1,
     0x11f4976cde2d797fccb9514e3858c906cbbd9f5e520f003c71c209c80725abd1,
     0x11f4976cde2d797fccb9514e3858c906cbbd9f5e520f003c71c209c80725abd1],
    0x11f4976cde2d797fccb9514e3858c906cbbd9f5e520f003c71c209c80725abd1),
   ([0x196987ef2b5736846a40f993d04007a576c9747081f33ad99b813cf36e1b31c9,
     0x30d056957683dfe0c3e289ea1c2304b19b5c09c17cabbb3a0464cd14463f41c7,
     0x30d056957683dfe0c3e289ea1c2304b19b5c09c17cabbb3a0464cd14463f41c7,
     0x30d056957683dfe0c3e289ea1c2304b19b5c09c17cabbb3a0464cd14463f41c7],
    0x30d056957683dfe0c3e289ea1c2304b19b5c09c17cabbb3a0464cd14463f41c7),
   ([0x157effe7295e958ba6d12c275f45002b24873c336aef53675564327f598dda94,
     0x44279ac8f3c57b2aa1638aca9d27eda6a7df26d8174ec50fde5537739fc1121],
    0x44279ac8f3c57b2aa1638aca9d27eda6a7df26d8174ec50fde5537739fc1121),
   ([0x113959c009146e23564a53dae5f434ad80a45ec3750f0e44f97eaa56ab533397],
    0x31b4ea3aced9464a3daba756ae9945b86407f3ef514c38f2d4645cb4fefb6a80)]

/-- All nodes of the tree of `merkle4`, by height, and the empty root of each height (computed outside; checked below). -/
def merkleLevels4 : List (List ℕ × ℕ) :=
  [([0xdf89ad556370877d4f76a993d20c7e81393fdb51d55d7a8f5621d6ad566c13d,
     0x3c3d90941de0381afbd58755031ab0e9e1c2ef575a3dfade311eba7f2f225c49,
     0x8a068f473f4b432ac976676b3f2fe293ee50f795e53798b097146eb155388e2,
     0x11af021ae73c8612bdedff3959747e45905ebc9625e51124c0f0b9ec3222194b,
     0x3001daa5b88ccbce73cf5b35f3197dd1b3ca29c1bc8d0bf5389d7842465d4105,
     0x2,
     0x2,
     0x2,
     0x2,
     0x2,
     0x2,
     0x2,
     0x2,
     0x2,
     0x2,
     0x2],
    0x2),
   ([0x41659a0354b30ce61cffb6ec1555d04285f0b9e38d3cabb958c92200aa0c300,
     0x1cb7f6c331e745e76d7201cf0d417a3a9db397514074fd53576696aaa40dee11,
     0xc72b1c3324a685aa03f2b9c2e2e4d587303af939ba08754050dcd1cdd555ec6,
     0x11f4976cde2d797fccb9514e3858c906cbbd9f5e520f003c71c209c80725abd1,
     0x11f4976cde2d797fccb9514e3858c906cbbd9f5e520f003c71c209c80725abd1,
     0x11f4976cde2d797fccb9514e3858c906cbbd9f5e520f003c71c209c80725abd1,
     0x11f4976cde2d797fccb9514e3858c906cbbd9f5e520f003c71c209c80725abd1,
     0x11f4976cde2d797fccb9514e3858c906cbbd9f5e520f003c71c209c80725abd1],
    0x11f4976cde2d797fccb9514e3858c906cbbd9f5e520f003c71c209c80725abd1),
   ([0x196987ef2b5736846a40f993d04007a576c9747081f33ad99b813cf36e1b31c9,
     0x3fc8835563adb81da05fcaccb0dd40ff244e350bb110af7a8c2d5723f5dbff92,
     0x30d056957683dfe0c3e289ea1c2304b19b5c09c17cabbb3a0464cd14463f41c7,
     0x30d056957683dfe0c3e289ea1c2304b19b5c09c17cabbb3a0464cd14463f41c7],
    0x30d056957683dfe0c3e289ea1c2304b19b5c09c17cabbb3a0464cd14463f41c7),
   ([0x687ffe42af837eb570d2de918339d3a98cd57f9a836b881c4bc689a95fe1fe5,
     0x44279ac8f3c57b2aa1638aca9d27eda6a7df26d8174ec50fde5537739fc1121],
    0x44279ac8f3c57b2aa1638aca9d27eda6a7df26d8174ec50fde5537739fc1121),
   ([0x3022a5a6ba3d1d67ad8d6a58266ef0e6523107ba7825dd1338916ef28dbeaf0b],
    0x31b4ea3aced9464a3daba756ae9945b86407f3ef514c38f2d4645cb4fefb6a80)]

/-- All nodes of the tree of `merkle5`, by height, and the empty root of each height (computed outside; checked below). -/
def merkleLevels5 : List (List ℕ × ℕ) :=
  [([0xdf89ad556370877d4f76a993d20c7e81393fdb51d55d7a8f5621d6ad566c13d,
     0x3c3d90941de0381afbd58755031ab0e9e1c2ef575a3dfade311eba7f2f225c49,
     0x8a068f473f4b432ac976676b3f2fe293ee50f795e53798b097146eb155388e2,
     0x11af021ae73c8612bdedff3959747e45905ebc9625e51124c0f0b9ec3222194b,
     0x3001daa5b88ccbce73cf5b35f3197dd1b3ca29c1bc8d0bf5389d7842465d4105,
     0x15d75dec41535a4f2aaaf5f7b0d44ccbc62690d382dc70265770a23639f15271,
     0x2,
     0x2,
     0x2,
     0x2,
     0x2,
     0x2,
     0x2,
     0x2,
     0x2,
     0x2],
    0x2),
   ([0x41659a0354b30ce61cffb6ec1555d04285f0b9e38d3cabb958c92200aa0c300,
     0x1cb7f6c331e745e76d7201cf0d417a3a9db397514074fd53576696aaa40dee11,
     0x2dcc91c76e5e024202d60967e57fa7d6945445ebb350444e186218e0f83a0f65,
     0x11f4976cde2d797fccb9514e3858c906cbbd9f5e520f003c71c209c80725abd1,
     0x11f4976cde2d797fccb9514e3858c906cbbd9f5e520f003c71c209c80725abd1,
     0x11f4976cde2d797fccb9514e3858c906cbbd9f5e520f003c71c209c80725abd1,
     0x11f4976cde2d797fccb9514e3858c906cbbd9f5e520f003c71c209c80725abd1,
     0x11f4976cde2d797fccb9514e3858c906cbbd9f5e520f003c71c209c80725abd1],
    0x11f4976cde2d797fccb9514e3858c906cbbd9f5e520f003c71c209c80725abd1),
   ([0x196987ef2b5736846a40f993d04007a576c9747081f33ad99b813cf36e1b31c9,
     0x2df1d1a589b49c9c50c118b847766675c9a3541092fbf61e8be03ba86b29860b,
     0x30d056957683dfe0c3e289ea1c2304b19b5c09c17cabbb3a0464cd14463f41c7,
     0x30d056957683dfe0c3e289ea1c2304b19b5c09c17cabbb3a0464cd14463f41c7],
    0x30d056957683dfe0c3e289ea1c2304b19b5c09c17cabbb3a0464cd14463f41c7),
   ([0xb1d3c47c099254c6b9191f4b5192fca399d5a14a7a02dced4607b3dee4ab42e,
     0x44279ac8f3c57b2aa1638aca9d27eda6a7df26d8174ec50fde5537739fc1121],
    0x44279ac8f3c57b2aa1638aca9d27eda6a7df26d8174ec50fde5537739fc1121),
   ([0x1a00984bd6d5502a568507b952d3ffee3c21385fb4195b67b9aa3859dae3a555],
    0x31b4ea3aced9464a3daba756ae9945b86407f3ef514c38f2d4645cb4fefb6a80)]

/-- All nodes of the tree of `merkle6`, by height, and the empty root of each height (computed outside; checked below). -/
def merkleLevels6 : List (List ℕ × ℕ) :=
  [([0xdf89ad556370877d4f76a993d20c7e81393fdb51d55d7a8f5621d6ad566c13d,
     0x3c3d90941de0381afbd58755031ab0e9e1c2ef575a3dfade311eba7f2f225c49,
     0x8a068f473f4b432ac976676b3f2fe293ee50f795e53798b097146eb155388e2,
     0x11af021ae73c8612bdedff3959747e45905ebc9625e51124c0f0b9ec3222194b,
     0x3001daa5b88ccbce73cf5b35f3197dd1b3ca29c1bc8d0bf5389d7842465d4105,
     0x15d75dec41535a4f2aaaf5f7b0d44ccbc62690d382dc70265770a23639f15271,
     0x880f879cdb5cf58a1cfeed90926ceaf1b2a86218c1c645f3f73fa2add2f6f40,
     0x2,
     0x2,
     0x2,
     0x2,
     0x2,
     0x2,
     0x2,
     0x2,
     0x2],
    0x2),
   ([0x41659a0354b30ce61cffb6ec1555d04285f0b9e38d3cabb958c92200aa0c300,
     0x1cb7f6c331e745e76d7201cf0d417a3a9db397514074fd53576696aaa40dee11,
     0x2dcc91c76e5e024202d60967e57fa7d6945445ebb350444e186218e0f83a0f65,
     0x3dd0e7efafca6fcefda107d3c6828c196148350e8fd1ba5192e8ccb3b7a38c41,
     0x11f4976cde2d797fccb9514e3858c906cbbd9f5e520f003c71c209c80725abd1,
     0x11f4976cde2d797fccb9514e3858c906cbbd9f5e520f003c71c209c80725abd1,
     0x11f4976cde2d797fccb9514e3858c906cbbd9f5e520f003c71c209c80725abd1,
     0x11f4976cde2d797fccb9514e3858c906cbbd9f5e520f003c71c209c80725abd1],
    0x11f4976cde2d797fccb9514e3858c906cbbd9f5e520f003c71c209c80725abd1),
   ([0x196987ef2b5736846a40f993d04007a576c9747081f33ad99b813cf36e1b31c9,
     0xfee72e9f1686ff36d30bc3e973d02d467984ab8056d07c9f4d0be235f61092,
     0x30d056957683dfe0c3e289ea1c2304b19b5c09c17cabbb3a0464cd14463f41c7,
     0x30d056957683dfe0c3e289ea1c2304b19b5c09c17cabbb3a0464cd14463f41c7],
    0x30d056957683dfe0c3e289ea1c2304b19b5c09c17cabbb3a0464cd14463f41c7),
   ([0xebbfa9bd93c1a2efcf19bc6086b0170b397967ab0ca1a01396bb4a742d1de7,
     0x44279ac8f3c57b2aa1638aca9d27eda6a7df26d8174ec50fde5537739fc1121],
    0x44279ac8f3c57b2aa1638aca9d27eda6a7df26d8174ec50fde5537739fc1121),
   ([0x2e67247e0e476f5c37494beb5fcd6ba56eb5b7ce1c8e16b0a8b6daa7111e4301],
    0x31b4ea3aced9464a3daba756ae9945b86407f3ef514c38f2d4645cb4fefb6a80)]

/-- All nodes of the tree of `merkle7`, by height, and the empty root of each height (computed outside; checked below). -/
def merkleLevels7 : List (List ℕ × ℕ) :=
  [([0xdf89ad556370877d4f76a993d20c7e81393fdb51d55d7a8f5621d6ad566c13d,
     0x3c3d90941de0381afbd58755031ab0e9e1c2ef575a3dfade311eba7f2f225c49,
     0x8a068f473f4b432ac976676b3f2fe293ee50f795e53798b097146eb155388e2,
     0x11af021ae73c8612bdedff3959747e45905ebc9625e51124c0f0b9ec3222194b,
     0x3001daa5b88ccbce73cf5b35f3197dd1b3ca29c1bc8d0bf5389d7842465d4105,
     0x15d75dec41535a4f2aaaf5f7b0d44ccbc62690d382dc70265770a23639f15271,
     0x880f879cdb5cf58a1cfeed90926ceaf1b2a86218c1c645f3f73fa2add2f6f40,
     0x3f798633c14a37f830bdc61862b5ceaa4f3137406065ecca73dffb9c23538c86,
     0x2,
     0x2,
     0x2,
     0x2,
     0x2,
     0x2,
     0x2,
     0x2],
    0x2),
   ([0x41659a0354b30ce61cffb6ec1555d04285f0b9e38d3cabb958c92200aa0c300,
     0x1cb7f6c331e745e76d7201cf0d417a3a9db397514074fd53576696aaa40dee11,
     0x2dcc91c76e5e024202d60967e57fa7d6945445ebb350444e186218e0f83a0f65,
     0x39c9c32ce6c9539f13755f30cb6729c4e6a3938f8c96133a264f4624daedba8b,
     0x11f4976cde2d797fccb9514e3858c906cbbd9f5e520f003c71c209c80725abd1,
     0x11f4976cde2d797fccb9514e3858c906cbbd9f5e520f003c71c209c80725abd1,
     0x11f4976cde2d797fccb9514e3858c906cbbd9f5e520f003c71c209c80725abd1,
     0x11f4976cde2d797fccb9514e3858c906cbbd9f5e520f003c71c209c80725abd1],
    0x11f4976cde2d797fccb9514e3858c906cbbd9f5e520f003c71c209c80725abd1),
   ([0x196987ef2b5736846a40f993d04007a576c9747081f33ad99b813cf36e1b31c9,
     0x3de79d7680051c0dddcb3fd4f6d98b160a65bae23127bd4ccf21f9843b05cd74,
     0x30d056957683dfe0c3e289ea1c2304b19b5c09c17cabbb3a0464cd14463f41c7,
     0x30d056957683dfe0c3e289ea1c2304b19b5c09c17cabbb3a0464cd14463f41c7],
    0x30d056957683dfe0c3e289ea1c2304b19b5c09c17cabbb3a0464cd14463f41c7),
   ([0x15e1a1fe8c700581e40b89463c83241f40e566d878d1b28802ad2bfd878f901,
     0x44279ac8f3c57b2aa1638aca9d27eda6a7df26d8174ec50fde5537739fc1121],
    0x44279ac8f3c57b2aa1638aca9d27eda6a7df26d8174ec50fde5537739fc1121),
   ([0x9ab0e393a3e59476959fddbd6c1703df521b769e1b0a9f244335f9c02019bfb],
    0x31b4ea3aced9464a3daba756ae9945b86407f3ef514c38f2d4645cb4fefb6a80)]

/-- All nodes of the tree of `merkle8`, by height, and the empty root of each height (computed outside; checked below). -/
def merkleLevels8 : List (List ℕ × ℕ) :=
  [([0xdf89ad556370877d4f76a993d20c7e81393fdb51d55d7a8f5621d6ad566c13d,
     0x3c3d90941de0381afbd58755031ab0e9e1c2ef575a3dfade311eba7f2f225c49,
     0x8a068f473f4b432ac976676b3f2fe293ee50f795e53798b097146eb155388e2,
     0x11af021ae73c8612bdedff3959747e45905ebc9625e51124c0f0b9ec3222194b,
     0x3001daa5b88ccbce73cf5b35f3197dd1b3ca29c1bc8d0bf5389d7842465d4105,
     0x15d75dec41535a4f2aaaf5f7b0d44ccbc62690d382dc70265770a23639f15271,
     0x880f879cdb5cf58a1cfeed90926ceaf1b2a86218c1c645f3f73fa2add2f6f40,
     0x3f798633c14a37f830bdc61862b5ceaa4f3137406065ecca73dffb9c23538c86,
     0x650e94996707a47cebeb5875b0edfa1b1e1006c94444ada0cbc03ad80fba921,
     0x2,
     0x2,
     0x2,
     0x2,
     0x2,
     0x2,
     0x2],
    0x2),
   ([0x41659a0354b30ce61cffb6ec1555d04285f0b9e38d3cabb958c92200aa0c300,
     0x1cb7f6c331e745e76d7201cf0d417a3a9db397514074fd53576696aaa40dee11,
     0x2dcc91c76e5e024202d60967e57fa7d6945445ebb350444e186218e0f83a0f65,
     0x39c9c32ce6c9539f13755f30cb6729c4e6a3938f8c96133a264f4624daedba8b,
     0x6a6cf2088696c6574770bd95b8bff64ff4f4ab71e71c87600b788d313efcf6a,
     0x11f4976cde2d797fccb9514e3858c906cbbd9f5e520f003c71c209c80725abd1,
     0x11f4976cde2d797fccb9514e3858c906cbbd9f5e520f003c71c209c80725abd1,
     0x11f4976cde2d797fccb9514e3858c906cbbd9f5e520f003c71c209c80725abd1],
    0x11f4976cde2d797fccb9514e3858c906cbbd9f5e520f003c71c209c80725abd1),
   ([0x196987ef2b5736846a40f993d04007a576c9747081f33ad99b813cf36e1b31c9,
     0x3de79d7680051c0dddcb3fd4f6d98b160a65bae23127bd4ccf21f9843b05cd74,
     0x36becd40da1f1dfacf671620f11e4ee93389efc5cf679de41e1be53ffa55072e,
     0x30d056957683dfe0c3e289ea1c2304b19b5c09c17cabbb3a0464cd14463f41c7],
    0x30d056957683dfe0c3e289ea1c2304b19b5c09c17cabbb3a0464cd14463f41c7),
   ([0x15e1a1fe8c700581e40b89463c83241f40e566d878d1b28802ad2bfd878f901,
     0x25c79fa95f323b2a3465a41deb57db41ee932bc316a11400c328dbc78ed8c073],
    0x44279ac8f3c57b2aa1638aca9d27eda6a7df26d8174ec50fde5537739fc1121),
   ([0x3df891bea10e4ea654768e12e6bd27420ca0efd31bac24b8e6c88c37a6d0b8bd],
    0x31b4ea3aced9464a3daba756ae9945b86407f3ef514c38f2d4645cb4fefb6a80)]

/-- All nodes of the tree of `merkle9`, by height, and the empty root of each height (computed outside; checked below). -/
def merkleLevels9 : List (List ℕ × ℕ) :=
  [([0xdf89ad556370877d4f76a993d20c7e81393fdb51d55d7a8f5621d6ad566c13d,
     0x3c3d90941de0381afbd58755031ab0e9e1c2ef575a3dfade311eba7f2f225c49,
     0x8a068f473f4b432ac976676b3f2fe293ee50f795e53798b097146eb155388e2,
     0x11af021ae73c8612bdedff3959747e45905ebc9625e51124c0f0b9ec3222194b,
     0x3001daa5b88ccbce73cf5b35f3197dd1b3ca29c1bc8d0bf5389d7842465d4105,
     0x15d75dec41535a4f2aaaf5f7b0d44ccbc62690d382dc70265770a23639f15271,
     0x880f879cdb5cf58a1cfeed90926ceaf1b2a86218c1c645f3f73fa2add2f6f40,
     0x3f798633c14a37f830bdc61862b5ceaa4f3137406065ecca73dffb9c23538c86,
     0x650e94996707a47cebeb5875b0edfa1b1e1006c94444ada0cbc03ad80fba921,
     0x8fa156f808478d923818206ea4024195a62689eff1af26b5c82fa96952ed626,
     0x2,
     0x2,
     0x2,
     0x2,
     0x2,
     0x2],
    0x2),
   ([0x41659a0354b30ce61cffb6ec1555d04285f0b9e38d3cabb958c92200aa0c300,
     0x1cb7f6c331e745e76d7201cf0d417a3a9db397514074fd53576696aaa40dee11,
     0x2dcc91c76e5e024202d60967e57fa7d6945445ebb350444e186218e0f83a0f65,
     0x39c9c32ce6c9539f13755f30cb6729c4e6a3938f8c96133a264f4624daedba8b,
     0x173e56269b68dc2bdf5b409a45e4efd7f55ce3a9c1367e217932675ca3ef8a8b,
     0x11f4976cde2d797fccb9514e3858c906cbbd9f5e520f003c71c209c80725abd1,
     0x11f4976cde2d797fccb9514e3858c906cbbd9f5e520f003c71c209c80725abd1,
     0x11f4976cde2d797fccb9514e3858c906cbbd9f5e520f003c71c209c80725abd1],
    0x11f4976cde2d797fccb9514e3858c906cbbd9f5e520f003c71c209c80725abd1),
   ([0x196987ef2b5736846a40f993d04007a576c9747081f33ad99b813cf36e1b31c9,
     0x3de79d7680051c0dddcb3fd4f6d98b160a65bae23127bd4ccf21f9843b05cd74,
     0x1af246d4b549cbe2a8d32b7e18b33fcc0aba3ce88a9c58377a0577da4ed839aa,
     0x30d056957683dfe0c3e289ea1c2304b19b5c09c17cabbb3a0464cd14463f41c7],
    0x30d056957683dfe0c3e289ea1c2304b19b5c09c17cabbb3a0464cd14463f41c7),
   ([0x15e1a1fe8c700581e40b89463c83241f40e566d878d1b28802ad2bfd878f901,
     0x3474cb0a5bee800f1dfcaca1aea6f7b92a30fa70113def5b0ea4449cd7deee6d],
    0x44279ac8f3c57b2aa1638aca9d27eda6a7df26d8174ec50fde5537739fc1121),
   ([0x12703a3602243ad2f40a89cd4485e50a5f33239222bac6a1fc80ea87c021c661],
    0x31b4ea3aced9464a3daba756ae9945b86407f3ef514c38f2d4645cb4fefb6a80)]

/-- All nodes of the tree of `merkle10`, by height, and the empty root of each height (computed outside; checked below). -/
def merkleLevels10 : List (List ℕ × ℕ) :=
  [([0xdf89ad556370877d4f76a993d20c7e81393fdb51d55d7a8f5621d6ad566c13d,
     0x3c3d90941de0381afbd58755031ab0e9e1c2ef575a3dfade311eba7f2f225c49,
     0x8a068f473f4b432ac976676b3f2fe293ee50f795e53798b097146eb155388e2,
     0x11af021ae73c8612bdedff3959747e45905ebc9625e51124c0f0b9ec3222194b,
     0x3001daa5b88ccbce73cf5b35f3197dd1b3ca29c1bc8d0bf5389d7842465d4105,
     0x15d75dec41535a4f2aaaf5f7b0d44ccbc62690d382dc70265770a23639f15271,
     0x880f879cdb5cf58a1cfeed90926ceaf1b2a86218c1c645f3f73fa2add2f6f40,
     0x3f798633c14a37f830bdc61862b5ceaa4f3137406065ecca73dffb9c23538c86,
     0x650e94996707a47cebeb5875b0edfa1b1e1006c94444ada0cbc03ad80fba921,
     0x8fa156f808478d923818206ea4024195a62689eff1af26b5c82fa96952ed626,
     0x1d3f53a474f8e375569848bc7b402902ad82ce1cac11d4321c4352d4a2d31408,
     0x2,
     0x2,
     0x2,
     0x2,
     0x2],
    0x2),
   ([0x41659a0354b30ce61cffb6ec1555d04285f0b9e38d3cabb958c92200aa0c300,
     0x1cb7f6c331e745e76d7201cf0d417a3a9db397514074fd53576696aaa40dee11,
     0x2dcc91c76e5e024202d60967e57fa7d6945445ebb350444e186218e0f83a0f65,
     0x39c9c32ce6c9539f13755f30cb6729c4e6a3938f8c96133a264f4624daedba8b,
     0x173e56269b68dc2bdf5b409a45e4efd7f55ce3a9c1367e217932675ca3ef8a8b,
     0x212309838733649a508f84d08b9305083921dd88d41394bef4a7602b42711a64,
     0x11f4976cde2d797fccb9514e3858c906cbbd9f5e520f003c71c209c80725abd1,
     0x11f4976cde2d797fccb9514e3858c906cbbd9f5e520f003c71c209c80725abd1],
    0x11f4976cde2d797fccb9514e3858c906cbbd9f5e520f003c71c209c80725abd1),
   ([0x196987ef2b5736846a40f993d04007a576c9747081f33ad99b813cf36e1b31c9,
     0x3de79d7680051c0dddcb3fd4f6d98b160a65bae23127bd4ccf21f9843b05cd74,
     0x11c003465b54508202ba0c6e2bf0d3b1365e10cf74fce73791a91b0847c2ff55,
     0x30d056957683dfe0c3e289ea1c2304b19b5c09c17cabbb3a0464cd14463f41c7],
    0x30d056957683dfe0c3e289ea1c2304b19b5c09c17cabbb3a0464cd14463f41c7),
   ([0x15e1a1fe8c700581e40b89463c83241f40e566d878d1b28802ad2bfd878f901,
     0xcbdf7eb31176feff222e2c72673e3dc025a22a6a11800b1b1f808b8330588b9],
    0x44279ac8f3c57b2aa1638aca9d27eda6a7df26d8174ec50fde5537739fc1121),
   ([0x22fe1a12b10bf4ded49cfca46181652e29a550333ad5dbfc4949ce361fb81c5f],
    0x31b4ea3aced9464a3daba756ae9945b86407f3ef514c38f2d4645cb4fefb6a80)]

/-- All nodes of the tree of `merkle11`, by height, and the empty root of each height (computed outside; checked below). -/
def merkleLevels11 : List (List ℕ × ℕ) :=
  [([0xdf89ad556370877d4f76a993d20c7e81393fdb51d55d7a8f5621d6ad566c13d,
     0x3c3d90941de0381afbd58755031ab0e9e1c2ef575a3dfade311eba7f2f225c49,
     0x8a068f473f4b432ac976676b3f2fe293ee50f795e53798b097146eb155388e2,
     0x11af021ae73c8612bdedff3959747e45905ebc9625e51124c0f0b9ec3222194b,
     0x3001daa5b88ccbce73cf5b35f3197dd1b3ca29c1bc8d0bf5389d7842465d4105,
     0x15d75dec41535a4f2aaaf5f7b0d44ccbc62690d382dc70265770a23639f15271,
     0x880f879cdb5cf58a1cfeed90926ceaf1b2a86218c1c645f3f73fa2add2f6f40,
     0x3f798633c14a37f830bdc61862b5ceaa4f3137406065ecca73dffb9c23538c86,
     0x650e94996707a47cebeb5875b0edfa1b1e1006c94444ada0cbc03ad80fba921,
     0x8fa156f808478d923818206ea4024195a62689eff1af26b5c82fa96952ed626,
     0x1d3f53a474f8e375569848bc7b402902ad82ce1cac11d4321c4352d4a2d31408,
     0x17102339af296c234ce5b4e9f32973cc14384445a68dee437b655dbadddd513d,
     0x2,
     0x2,
     0x2,
     0x2],
    0x2),
   ([0x41659a0354b30ce61cffb6ec1555d04285f0b9e38d3cabb958c92200aa0c300,
     0x1cb7f6c331e745e76d7201cf0d417a3a9db397514074fd53576696aaa40dee11,
     0x2dcc91c76e5e024202d60967e57fa7d6945445ebb350444e186218e0f83a0f65,
     0x39c9c32ce6c9539f13755f30cb6729c4e6a3938f8c96133a264f4624daedba8b,
     0x173e56269b68dc2bdf5b409a45e4efd7f55ce3a9c1367e217932675ca3ef8a8b,
     0x284192abf4ab3e08dfac0c8d9eecbe99150387f78db99c7831ed74f61f4f0946,
     0x11f4976cde2d797fccb9514e3858c906cbbd9f5e520f003c71c209c80725abd1,
     0x11f4976cde2d797fccb9514e3858c906cbbd9f5e520f003c71c209c80725abd1],
    0x11f4976cde2d797fccb9514e3858c906cbbd9f5e520f003c71c209c80725abd1),
   ([0x196987ef2b5736846a40f993d04007a576c9747081f33ad99b813cf36e1b31c9,
     0x3de79d7680051c0dddcb3fd4f6d98b160a65bae23127bd4ccf21f9843b05cd74,
     0xd99ab62023d6fd9ea55ea13969670fc9d96d06a78b6c6b73e5b80d29551c508,
     0x30d056957683dfe0c3e289ea1c2304b19b5c09c17cabbb3a0464cd14463f41c7],
    0x30d056957683dfe0c3e289ea1c2304b19b5c09c17cabbb3a0464cd14463f41c7),
   ([0x15e1a1fe8c700581e40b89463c83241f40e566d878d1b28802ad2bfd878f901,
     0x3bdd3c4d5e575c29a53f7126f1b29d3ffe6fa05ae4f473134c13c523535b476c],
    0x44279ac8f3c57b2aa1638aca9d27eda6a7df26d8174ec50fde5537739fc1121),
   ([0x1adf35e4484b6649764a7cf45c745b090b55bafff72817500d14d3b562139563],
    0x31b4ea3aced9464a3daba756ae9945b86407f3ef514c38f2d4645cb4fefb6a80)]

/-- All nodes of the tree of `merkle12`, by height, and the empty root of each height (computed outside; checked below). -/
def merkleLevels12 : List (List ℕ × ℕ) :=
  [([0xdf89ad556370877d4f76a993d20c7e81393fdb51d55d7a8f5621d6ad566c13d,
     0x3c3d90941de0381afbd58755031ab0e9e1c2ef575a3dfade311eba7f2f225c49,
     0x8a068f473f4b432ac976676b3f2fe293ee50f795e53798b097146eb155388e2,
     0x11af021ae73c8612bdedff3959747e45905ebc9625e51124c0f0b9ec3222194b,
     0x3001daa5b88ccbce73cf5b35f3197dd1b3ca29c1bc8d0bf5389d7842465d4105,
     0x15d75dec41535a4f2aaaf5f7b0d44ccbc62690d382dc70265770a23639f15271,
     0x880f879cdb5cf58a1cfeed90926ceaf1b2a86218c1c645f3f73fa2add2f6f40,
     0x3f798633c14a37f830bdc61862b5ceaa4f3137406065ecca73dffb9c23538c86,
     0x650e94996707a47cebeb5875b0edfa1b1e1006c94444ada0cbc03ad80fba921,
     0x8fa156f808478d923818206ea4024195a62689eff1af26b5c82fa96952ed626,
     0x1d3f53a474f8e375569848bc7b402902ad82ce1cac11d4321c4352d4a2d31408,
     0x17102339af296c234ce5b4e9f32973cc14384445a68dee437b655dbadddd513d,
     0x343144573698bf493ea087f3074670904d82d9298070e19157f4857c35236c73,
     0x2,
     0x2,
     0x2],
    0x2),
   ([0x41659a0354b30ce61cffb6ec1555d04285f0b9e38d3cabb958c92200aa0c300,
     0x1cb7f6c331e745e76d7201cf0d417a3a9db397514074fd53576696aaa40dee11,
     0x2dcc91c76e5e024202d60967e57fa7d6945445ebb350444e186218e0f83a0f65,
     0x39c9c32ce6c9539f13755f30cb6729c4e6a3938f8c96133a264f4624daedba8b,
     0x173e56269b68dc2bdf5b409a45e4efd7f55ce3a9c1367e217932675ca3ef8a8b,
     0x284192abf4ab3e08dfac0c8d9eecbe99150387f78db99c7831ed74f61f4f0946,
     0x1996237becc10d2d26538148fd5f5b3c9d0b24495fd0dfee7959385394be577c,
     0x11f4976cde2d797fccb9514e3858c906cbbd9f5e520f003c71c209c80725abd1],
    0x11f4976cde2d797fccb9514e3858c906cbbd9f5e520f003c71c209c80725abd1),
   ([0x196987ef2b5736846a40f993d04007a576c9747081f33ad99b813cf36e1b31c9,
     0x3de79d7680051c0dddcb3fd4f6d98b160a65bae23127bd4ccf21f9843b05cd74,
     0xd99ab62023d6fd9ea55ea13969670fc9d96d06a78b6c6b73e5b80d29551c508,
     0x3c3837cda0e310038c65e865f6685fabd34d29ddcef82eaa7fb53897270e2a6f],
    0x30d056957683dfe0c3e289ea1c2304b19b5c09c17cabbb3a0464cd14463f41c7),
   ([0x15e1a1fe8c700581e40b89463c83241f40e566d878d1b28802ad2bfd878f901,
     0xdf8fd5abd3f0c06c88f2caad949b47a7d4b1cd8c5d4421b0e30886ba7ebc962],
    0x44279ac8f3c57b2aa1638aca9d27eda6a7df26d8174ec50fde5537739fc1121),
   ([0x35390aedb1c94e55f92326e5dbadfd1dd0f1df6cce7b2904cb1d2e1628157eba],
    0x31b4ea3aced9464a3daba756ae9945b86407f3ef514c38f2d4645cb4fefb6a80)]

/-- All nodes of the tree of `merkle13`, by height, and the empty root of each height (computed outside; checked below). -/
def merkleLevels13 : List (List ℕ × ℕ) :=
  [([0xdf89ad556370877d4f76a993d20c7e81393fdb51d55d7a8f5621d6ad566c13d,
     0x3c3d90941de0381afbd58755031ab0e9e1c2ef575a3dfade311eba7f2f225c49,
     0x8a068f473f4b432ac976676b3f2fe293ee50f795e53798b097146eb155388e2,
     0x11af021ae73c8612bdedff3959747e45905ebc9625e51124c0f0b9ec3222194b,
     0x3001daa5b88ccbce73cf5b35f3197dd1b3ca29c1bc8d0bf5389d7842465d4105,
     0x15d75dec41535a4f2aaaf5f7b0d44ccbc62690d382dc70265770a23639f15271,
     0x880f879cdb5cf58a1cfeed90926ceaf1b2a86218c1c645f3f73fa2add2f6f40,
     0x3f798633c14a37f830bdc61862b5ceaa4f3137406065ecca73dffb9c23538c86,
     0x650e94996707a47cebeb5875b0edfa1b1e1006c94444ada0cbc03ad80fba921,
     0x8fa156f808478d923818206ea4024195a62689eff1af26b5c82fa96952ed626,
     0x1d3f53a474f8e375569848bc7b402902ad82ce1cac11d4321c4352d4a2d31408,
     0x17102339af296c234ce5b4e9f32973cc14384445a68dee437b655dbadddd513d,
     0x343144573698bf493ea087f3074670904d82d9298070e19157f4857c35236c73,
     0x1be377068ec85f757ef770d6cf3a554e4b14ecc16b6b01abaef1f6ddac36050c,
     0x2,
     0x2],
    0x2),
   ([0x41659a0354b30ce61cffb6ec1555d04285f0b9e38d3cabb958c92200aa0c300,
     0x1cb7f6c331e745e76d7201cf0d417a3a9db397514074fd53576696aaa40dee11,
     0x2dcc91c76e5e024202d60967e57fa7d6945445ebb350444e186218e0f83a0f65,
     0x39c9c32ce6c9539f13755f30cb6729c4e6a3938f8c96133a264f4624daedba8b,
     0x173e56269b68dc2bdf5b409a45e4efd7f55ce3a9c1367e217932675ca3ef8a8b,
     0x284192abf4ab3e08dfac0c8d9eecbe99150387f78db99c7831ed74f61f4f0946,
     0x3fc67a0ec009dd4b5bc0876229e0ecbc6a56143a5eade3de2cfe0be8f85072df,
     0x11f4976cde2d797fccb9514e3858c906cbbd9f5e520f003c71c209c80725abd1],
    0x11f4976cde2d797fccb9514e3858c906cbbd9f5e520f003c71c209c80725abd1),
   ([0x196987ef2b5736846a40f993d04007a576c9747081f33ad99b813cf36e1b31c9,
     0x3de79d7680051c0dddcb3fd4f6d98b160a65bae23127bd4ccf21f9843b05cd74,
     0xd99ab62023d6fd9ea55ea13969670fc9d96d06a78b6c6b73e5b80d29551c508,
     0x2f8ee3b63a5ce682dff632efbb835eb4fb6b63378feec7f091b1fa591400d4d6],
    0x30d056957683dfe0c3e289ea1c2304b19b5c09c17cabbb3a0464cd14463f41c7),
   ([0x15e1a1fe8c700581e40b89463c83241f40e566d878d1b28802ad2bfd878f901,
     0x2319330dac3c4046b76a4c2be31a69e40adbc9f72b145ca28ea51bc0eb93c6ef],
    0x44279ac8f3c57b2aa1638aca9d27eda6a7df26d8174ec50fde5537739fc1121),
   ([0x3f24cdeb8acfbb547f66217c337ce47fd4cc672578a4b0b340297ba0e4f420b2],
    0x31b4ea3aced9464a3daba756ae9945b86407f3ef514c38f2d4645cb4fefb6a80)]

/-- All nodes of the tree of `merkle14`, by height, and the empty root of each height (computed outside; checked below). -/
def merkleLevels14 : List (List ℕ × ℕ) :=
  [([0xdf89ad556370877d4f76a993d20c7e81393fdb51d55d7a8f5621d6ad566c13d,
     0x3c3d90941de0381afbd58755031ab0e9e1c2ef575a3dfade311eba7f2f225c49,
     0x8a068f473f4b432ac976676b3f2fe293ee50f795e53798b097146eb155388e2,
     0x11af021ae73c8612bdedff3959747e45905ebc9625e51124c0f0b9ec3222194b,
     0x3001daa5b88ccbce73cf5b35f3197dd1b3ca29c1bc8d0bf5389d7842465d4105,
     0x15d75dec41535a4f2aaaf5f7b0d44ccbc62690d382dc70265770a23639f15271,
     0x880f879cdb5cf58a1cfeed90926ceaf1b2a86218c1c645f3f73fa2add2f6f40,
     0x3f798633c14a37f830bdc61862b5ceaa4f3137406065ecca73dffb9c23538c86,
     0x650e94996707a47cebeb5875b0edfa1b1e1006c94444ada0cbc03ad80fba921,
     0x8fa156f808478d923818206ea4024195a62689eff1af26b5c82fa96952ed626,
     0x1d3f53a474f8e375569848bc7b402902ad82ce1cac11d4321c4352d4a2d31408,
     0x17102339af296c234ce5b4e9f32973cc14384445a68dee437b655dbadddd513d,
     0x343144573698bf493ea087f3074670904d82d9298070e19157f4857c35236c73,
     0x1be377068ec85f757ef770d6cf3a554e4b14ecc16b6b01abaef1f6ddac36050c,
     0x258d487b30c26bbc014f91150eb34c43ffb1c2419d78e38f956877304eb459a4,
     0x2],
    0x2),
   ([0x41659a0354b30ce61cffb6ec1555d04285f0b9e38d3cabb958c92200aa0c300,
     0x1cb7f6c331e745e76d7201cf0d417a3a9db397514074fd53576696aaa40dee11,
     0x2dcc91c76e5e024202d60967e57fa7d6945445ebb350444e186218e0f83a0f65,
     0x39c9c32ce6c9539f13755f30cb6729c4e6a3938f8c96133a264f4624daedba8b,
     0x173e56269b68dc2bdf5b409a45e4efd7f55ce3a9c1367e217932675ca3ef8a8b,
     0x284192abf4ab3e08dfac0c8d9eecbe99150387f78db99c7831ed74f61f4f0946,
     0x3fc67a0ec009dd4b5bc0876229e0ecbc6a56143a5eade3de2cfe0be8f85072df,
     0x49da7454f160a008fe6edf4c36cf4e65038e2c555d5bf372ad980a137895377],
    0x11f4976cde2d797fccb9514e3858c906cbbd9f5e520f003c71c209c80725abd1),
   ([0x196987ef2b5736846a40f993d04007a576c9747081f33ad99b813cf36e1b31c9,
     0x3de79d7680051c0dddcb3fd4f6d98b160a65bae23127bd4ccf21f9843b05cd74,
     0xd99ab62023d6fd9ea55ea13969670fc9d96d06a78b6c6b73e5b80d29551c508,
     0xf661dcb263a1400c852d1c1c9cf62ac06b15f809ab68202877cd0b44d659125],
    0x30d056957683dfe0c3e289ea1c2304b19b5c09c17cabbb3a0464cd14463f41c7),
   ([0x15e1a1fe8c700581e40b89463c83241f40e566d878d1b28802ad2bfd878f901,
     0x34e8009d9531bd8383aa7880db329e177686a31a46020806c886a8cbccdc7035],
    0x44279ac8f3c57b2aa1638aca9d27eda6a7df26d8174ec50fde5537739fc1121),
   ([0x2529d217b78c5da7967951a6ca6b16da5737261b81975fa7b986e8ca20060463],
    0x31b4ea3aced9464a3daba756ae9945b86407f3ef514c38f2d4645cb4fefb6a80)]

/-- All nodes of the tree of `merkle15`, by height, and the empty root of each height (computed outside; checked below). -/
def merkleLevels15 : List (List ℕ × ℕ) :=
  [([0xdf89ad556370877d4f76a993d20c7e81393fdb51d55d7a8f5621d6ad566c13d,
     0x3c3d90941de0381afbd58755031ab0e9e1c2ef575a3dfade311eba7f2f225c49,
     0x8a068f473f4b432ac976676b3f2fe293ee50f795e53798b097146eb155388e2,
     0x11af021ae73c8612bdedff3959747e45905ebc9625e51124c0f0b9ec3222194b,
     0x3001daa5b88ccbce73cf5b35f3197dd1b3ca29c1bc8d0bf5389d7842465d4105,
     0x15d75dec41535a4f2aaaf5f7b0d44ccbc62690d382dc70265770a23639f15271,
     0x880f879cdb5cf58a1cfeed90926ceaf1b2a86218c1c645f3f73fa2add2f6f40,
     0x3f798633c14a37f830bdc61862b5ceaa4f3137406065ecca73dffb9c23538c86,
     0x650e94996707a47cebeb5875b0edfa1b1e1006c94444ada0cbc03ad80fba921,
     0x8fa156f808478d923818206ea4024195a62689eff1af26b5c82fa96952ed626,
     0x1d3f53a474f8e375569848bc7b402902ad82ce1cac11d4321c4352d4a2d31408,
     0x17102339af296c234ce5b4e9f32973cc14384445a68dee437b655dbadddd513d,
     0x343144573698bf493ea087f3074670904d82d9298070e19157f4857c35236c73,
     0x1be377068ec85f757ef770d6cf3a554e4b14ecc16b6b01abaef1f6ddac36050c,
     0x258d487b30c26bbc014f91150eb34c43ffb1c2419d78e38f956877304eb459a4,
     0x1c71e1e5400a9db929bf96f35940cd6945b906e82fb0f612d7ffa40e38b7d756],
    0x2),
   ([0x41659a0354b30ce61cffb6ec1555d04285f0b9e38d3cabb958c92200aa0c300,
     0x1cb7f6c331e745e76d7201cf0d417a3a9db397514074fd53576696aaa40dee11,
     0x2dcc91c76e5e024202d60967e57fa7d6945445ebb350444e186218e0f83a0f65,
     0x39c9c32ce6c9539f13755f30cb6729c4e6a3938f8c96133a264f4624daedba8b,
     0x173e56269b68dc2bdf5b409a45e4efd7f55ce3a9c1367e217932675ca3ef8a8b,
     0x284192abf4ab3e08dfac0c8d9eecbe99150387f78db99c7831ed74f61f4f0946,
     0x3fc67a0ec009dd4b5bc0876229e0ecbc6a56143a5eade3de2cfe0be8f85072df,
     0x271d57b248171415bda6d149ec5efc4e0cce41245ec69ee66853227b78073d74],
    0x11f4976cde2d797fccb9514e3858c906cbbd9f5e520f003c71c209c80725abd1),
   ([0x196987ef2b5736846a40f993d04007a576c9747081f33ad99b813cf36e1b31c9,
     0x3de79d7680051c0dddcb3fd4f6d98b160a65bae23127bd4ccf21f9843b05cd74,
     0xd99ab62023d6fd9ea55ea13969670fc9d96d06a78b6c6b73e5b80d29551c508,
     0x31fa1c9d9c91d84d5788e8cc789b5891bff65618f18738c1fe29621a44a31b87],
    0x30d056957683dfe0c3e289ea1c2304b19b5c09c17cabbb3a0464cd14463f41c7),
   ([0x15e1a1fe8c700581e40b89463c83241f40e566d878d1b28802ad2bfd878f901,
     0x2206649d4f212735a364ad1bc159a8d54698b5afd2954ad3de16965894338c7e],
    0x44279ac8f3c57b2aa1638aca9d27eda6a7df26d8174ec50fde5537739fc1121),
   ([0x252baa7edf6fd1ea7a69388a6f4d28c569a9d5b9eccd5df3137c08ab45979acf],
    0x31b4ea3aced9464a3daba756ae9945b86407f3ef514c38f2d4645cb4fefb6a80)]

/-- The nodes of the tree of `anchor_incremental` (computed outside; checked below). -/
def incrementalLevels : List (List ℕ × ℕ) :=
  [([0xa3916ea6f8523326becbdb5f94046cbe1e1759ac94ea49990223399f45c1368,
     0xe2fe701699512f65caf64ea81ecf0c07d2026671d73a530b49829fb08503178,
     0xac4adb67bb74317eed1d14092c878f5e677345d101430b496c5303a058894ee,
     0x1aac7a167bf1c6d7fc3ed146f44d4d836046263fca5b8c7663f30165f0e7dc9d,
     0x21a1533fd53b162699d40d283bdf6c8a190fffba9b53a49e765f6f1c811686bd],
    0x2),
   ([0x338177e10b3cd281d4b4ae11f597541a364d00a15d6ed454f9ccd9e4a4694ba3,
     0xbd8854ee699226967c907263e09a38b367249cb74dfe347ee0f7eff0021c03e,
     0x770be9398a42be0dd613ce2ad240b6d04828250b9fc0782bb41f2768a4bec69],
    0x11f4976cde2d797fccb9514e3858c906cbbd9f5e520f003c71c209c80725abd1),
   ([0x38562861cf7990f304ece8d0e0e966fdb7f67c394f1f9e73a9711379d9999634,
     0x24e542434aaae444d2833d99bed6dd733340ed5d6427d9e389a6f2d80725390b],
    0x30d056957683dfe0c3e289ea1c2304b19b5c09c17cabbb3a0464cd14463f41c7),
   ([0x1ae3fae56406c9e6a7c9a5819cb5395193ed41c345d59ce51cd6c463e61c8fef],
    0x44279ac8f3c57b2aa1638aca9d27eda6a7df26d8174ec50fde5537739fc1121),
   ([0x3e7347f13dc9cfad602de038d6781ff35cdd70dc47ee99680827e938718fd160],
    0x31b4ea3aced9464a3daba756ae9945b86407f3ef514c38f2d4645cb4fefb6a80),
   ([0x11782e445fc653ac03cea9462adad3fcbd91fa96db1c6fffc501a6a2409d9afe],
    0x18abed52ed3002af2798f51bc19bedd2c9fc69003699e845c6f0c0f257413e87),
   ([0x33b1da86878e83fde13213d4313d44434e2e7f2fad1be58b11c2ca72c5e28d4f],
    0x2c4ff95a4f8937220846aa30a8abc6fa8a053125ac1c870ade13a952013ab27),
   ([0x1ec90e4ca0593a69617a3204758e85a0dcebaf1c47888a4f40fc97387a549199],
    0x3b13f3906f701d1f8e4ad7221b0555056830523b11374b5ba6a291f13d56144e),
   ([0x233888f32c426875c5cc61f6f5643575f6805a47b7e80b6291fd6804a5c5c93a],
    0x1f3707da6df0e41c6f67045d859633ce55851d4b17f4b74e0f8ad193f9e4bbb3),
   ([0x30725917d9e58fbd4a6aaf87823042855b1ab1c21edd7640d438a70f4c608a1e],
    0xe17bd4c92572b5a39b8bc1c99cbdf79c628ba3fe9279eeb6ad7f0c6e9bdf54e),
   ([0x55d3530e60329bb319b22e3037d661611602c25a56f04e8f96a88581fc8f0a1],
    0x743b7c639f9a56294bf11831b6a7da417d27c7d6a0dc31ecaf5ebac6825c0a3),
   ([0x300056bd44f1c0fefaf9df3104c3203f14a65a0421ce5c4e4c9151b5ca0f00c0],
    0x390dd1d2c5662b30f61c6ca9ca404d1db4495decd6ba0516da2261ae0bb3f93e),
   ([0x36bfae741fa4bcc41a5d1f1c708555d51dda2dbf840c2336667911585107e5b1],
    0xb9ed98ef64fa6a78488390038e530982d3670de72c1703be6ab93cb0028ae22),
   ([0x34dcb3ce092ebf59b19df6930a1280d99b4e35e6ff5f067068839af18b9b0a2],
    0x1b66b7651dbb92721c035c140d313b05a617c9df9c97b0ed4cc27226d9107118),
   ([0x1e73d8a1ac80b955da2e9e13448d6071b944341818309e312baafe88b5a0b09],
    0x3b4564b91762fb4b354bab9090e3fa6611bec6af2c04c20c8b144f36bead983f),
   ([0xd91a112d58e382099977152627ab9dc96a04b32987c3ca65f985c5573ea536a],
    0xfec4763bc96f603590823c9660544edf425bdb3e0734973f136f90dd1dbf863),
   ([0x3941d93bf8350db8e46677920c17068515b473a5166afdc546402aa87a947783],
    0x34dcf5b7ecb1dda089e3cb6d0678e464e5fa8d146835315a886140ac3e168221),
   ([0x31fca8a283d6e78149bd390e45a161a5ff29ab6352ca10d3536aae37f94f0360],
    0x31d3a638278b57a2923bc1ac63da2789d61aaa069e1fcdf9f3a3181968c09dbd),
   ([0x9b2f02bd1dc95237c62edea4e2e0436f7679accdf5e0de8c855cf6c59b642c5],
    0x2e8d63c774216c4b093197923c2255d39ce6a93d3386a93b5eb97f3b95ed2cca),
   ([0xa7f5e50978bec6a2e7b0ce9e9ae182f108650349b65ed70f29fc9245e0d7488],
    0x1a4e1a33a59cc1c3bd78771168f6ab8d24ee714d09e0e1aa459e6fb5964b3555),
   ([0x12d47778dac0e9d1963f9edb02329a618ca7e1c5bc531980a0f2ef011ac84457],
    0x5f71033d378bb729e90f578654694e692acc541cacaffdea045a02a4cb09770),
   ([0x80cc054c1b28de21492f22804294a0a9e96e4d89f6063a9bc2c856a256a3397],
    0x12e36772839eb54c3f50a619a59c57acbe5e8223f7a8610d43b81ff21681de8),
   ([0x37a98ffb3474041268075d7b9603babb94a96e38fd3243aebd1ba55230264560],
    0x24d86d9aaaad5838a6d179cb5c2a3b8c80fd3849c9fdc4b896497c7f56e87d15),
   ([0x14318ac94f0724c1c34589b5f2aeebfb00f1390a397d4f4d41f61f317d3f0c9c],
    0xb5d7773fe73ed739820ebe6eafc1859278bf9c49546122cc12061cd51ce1ffe),
   ([0x10d4d1f2fa67b64b754a6c9c71931210045d78a443dcd059d9bb53cc5aea4887],
    0x2d0a3ab6ae0a5a33b346835b4e3252b137ff3010fa0c4df7692601122998911f),
   ([0x1fcd0413b33e38aab85119809b67d756110fbb508f09a5a9bde3953168ebc5d1],
    0x22559754c745c606ec0a54140795eda7bebfbb3c18961393a37df12af515ec5d),
   ([0x2f919b1c11f190113a09c0801bb4a924724619c283a197c5be3e11f93ae9dfcd],
    0x258a081b5900f6074c3a94da3cc613b61758cc331d94ee75ab3b461dd92aaee8),
   ([0x2cd72d8c333f89eda89e276d92ca699262b035841cb7b703af1903a0f855a772],
    0xf06d046da76daf00097e8af438215b183a518a5f423687696f5ce71e3de3fd5),
   ([0x2176a69e883c33fe204870333f115a16dcb3a2a11eedfcf3675f006ebe98fd33],
    0x2ed66b6b6f8f29b6b3f625e8fe886221ebec30c729e8619a4c91e7ef4c44d215),
   ([0xcee31964cd7f4d33ddd19a60b06c90b26febbbcc2cbc8c702aaebf74500e77b],
    0x3f25121b0218dc6cf514fdb8e5d9a3b685d60e6b6baa837aea10aaa017a6574c),
   ([0x2a67ec46474ca1bf81dcb65f7e074ba0ffbb7be1db3cb50b2920379cf5de6df8],
    0x27ba14a06cf07323de77da59259e3523acb269d955be20791a83bd195c91d43f),
   ([0x3154d6e0c03e19f2cec0bcc0283f86db82864011aa69955987d115e689aaa608],
    0x2a4c109fe28f5c71f7bda83f74ec8b684cb90e8462772b224449ee07cd63d087),
   ([0xe7f529ccc28cf287b132d64d0f75fc60c2e642e2891ebcd8b3f87602dbe75c8],
    0x2fd8e51a03d9bbe2dd809831b1497aeb68a6e37ddf707ced4aa2d8dff13529ae)]

/-- The hashes met in these trees, each once (computed outside; checked below). -/
def merkleHashes : List (ℕ × ℕ × ℕ × ℕ) :=
  [(0, 0xdf89ad556370877d4f76a993d20c7e81393fdb51d55d7a8f5621d6ad566c13d, 0x2, 0x20e046e1de7bcefb6cf8578ee02d5862296a3d60b14f5f24b3334950461e9df7),
   (0, 0x2, 0x2, 0x11f4976cde2d797fccb9514e3858c906cbbd9f5e520f003c71c209c80725abd1),
   (1, 0x20e046e1de7bcefb6cf8578ee02d5862296a3d60b14f5f24b3334950461e9df7, 0x11f4976cde2d797fccb9514e3858c906cbbd9f5e520f003c71c209c80725abd1, 0x1c06553d2931d397c846af848358624c0d1e99b2286093cbe1a6692c1891d39e),
   (1, 0x11f4976cde2d797fccb9514e3858c906cbbd9f5e520f003c71c209c80725abd1, 0x11f4976cde2d797fccb9514e3858c906cbbd9f5e520f003c71c209c80725abd1, 0x30d056957683dfe0c3e289ea1c2304b19b5c09c17cabbb3a0464cd14463f41c7),
   (2, 0x1c06553d2931d397c846af848358624c0d1e99b2286093cbe1a6692c1891d39e, 0x30d056957683dfe0c3e289ea1c2304b19b5c09c17cabbb3a0464cd14463f41c7, 0x2d2fab1471087e61718ea3b39a747e1b0be66d364dbc0e9620f8cb4a94744b6e),
   (2, 0x30d056957683dfe0c3e289ea1c2304b19b5c09c17cabbb3a0464cd14463f41c7, 0x30d056957683dfe0c3e289ea1c2304b19b5c09c17cabbb3a0464cd14463f41c7, 0x44279ac8f3c57b2aa1638aca9d27eda6a7df26d8174ec50fde5537739fc1121),
   (3, 0x2d2fab1471087e61718ea3b39a747e1b0be66d364dbc0e9620f8cb4a94744b6e, 0x44279ac8f3c57b2aa1638aca9d27eda6a7df26d8174ec50fde5537739fc1121, 0xd613c69bfed58c96f6197e54e7f8d17fc96bd9dc6c26efdcc2ecaaea64c0c40),
   (3, 0x44279ac8f3c57b2aa1638aca9d27eda6a7df26d8174ec50fde5537739fc1121, 0x44279ac8f3c57b2aa1638aca9d27eda6a7df26d8174ec50fde5537739fc1121, 0x31b4ea3aced9464a3daba756ae9945b86407f3ef514c38f2d4645cb4fefb6a80),
   (0, 0xdf89ad556370877d4f76a993d20c7e81393fdb51d55d7a8f5621d6ad566c13d, 0x3c3d90941de0381afbd58755031ab0e9e1c2ef575a3dfade311eba7f2f225c49, 0x41659a0354b30ce61cffb6ec1555d04285f0b9e38d3cabb958c92200aa0c300),
   (1, 0x41659a0354b30ce61cffb6ec1555d04285f0b9e38d3cabb958c92200aa0c300, 0x11f4976cde2d797fccb9514e3858c906cbbd9f5e520f003c71c209c80725abd1, 0x1174fcdf3a4b593308c13861bae2e3376221caac8d6993a477d2a0e8a310a210),
   (2, 0x1174fcdf3a4b593308c13861bae2e3376221caac8d6993a477d2a0e8a310a210, 0x30d056957683dfe0c3e289ea1c2304b19b5c09c17cabbb3a0464cd14463f41c7, 0x2e02eb04878e092621649895b2ecc74ad51fedf5d98510eb09bf30892c179159),
   (3, 0x2e02eb04878e092621649895b2ecc74ad51fedf5d98510eb09bf30892c179159, 0x44279ac8f3c57b2aa1638aca9d27eda6a7df26d8174ec50fde5537739fc1121, 0x288363cd10b9f0f2adca43ad370d3e547883ffd80588934cc2ce449bffe4bd5e),
   (0, 0x8a068f473f4b432ac976676b3f2fe293ee50f795e53798b097146eb155388e2, 0x2, 0x37bf60ed5183429f24be79a41a90483bee8f11101b27f53116dfa295e761eef9),
   (1, 0x41659a0354b30ce61cffb6ec1555d04285f0b9e38d3cabb958c92200aa0c300, 0x37bf60ed5183429f24be79a41a90483bee8f11101b27f53116dfa295e761eef9, 0x36ab2c23e504d60b6c75b0eed15ed7d2eaefd23b930f96c5152d3f61d8646d8),
   (2, 0x36ab2c23e504d60b6c75b0eed15ed7d2eaefd23b930f96c5152d3f61d8646d8, 0x30d056957683dfe0c3e289ea1c2304b19b5c09c17cabbb3a0464cd14463f41c7, 0x13bd42e59554ac00f8f0453952688e45106ce3811f4d56e406a5f647e4843b95),
   (3, 0x13bd42e59554ac00f8f0453952688e45106ce3811f4d56e406a5f647e4843b95, 0x44279ac8f3c57b2aa1638aca9d27eda6a7df26d8174ec50fde5537739fc1121, 0x4eb9efd0afcae069cce146e6e83d707381ccc4bbfe032a177b2f1e8ea2e3093),
   (0, 0x8a068f473f4b432ac976676b3f2fe293ee50f795e53798b097146eb155388e2, 0x11af021ae73c8612bdedff3959747e45905ebc9625e51124c0f0b9ec3222194b, 0x1cb7f6c331e745e76d7201cf0d417a3a9db397514074fd53576696aaa40dee11),
   (1, 0x41659a0354b30ce61cffb6ec1555d04285f0b9e38d3cabb958c92200aa0c300, 0x1cb7f6c331e745e76d7201cf0d417a3a9db397514074fd53576696aaa40dee11, 0x196987ef2b5736846a40f993d04007a576c9747081f33ad99b813cf36e1b31c9),
   (2, 0x196987ef2b5736846a40f993d04007a576c9747081f33ad99b813cf36e1b31c9, 0x30d056957683dfe0c3e289ea1c2304b19b5c09c17cabbb3a0464cd14463f41c7, 0x157effe7295e958ba6d12c275f45002b24873c336aef53675564327f598dda94),
   (3, 0x157effe7295e958ba6d12c275f45002b24873c336aef53675564327f598dda94, 0x44279ac8f3c57b2aa1638aca9d27eda6a7df26d8174ec50fde5537739fc1121, 0x113959c009146e23564a53dae5f434ad80a45ec3750f0e44f97eaa56ab533397),
   (0, 0x3001daa5b88ccbce73cf5b35f3197dd1b3ca29c1bc8d0bf5389d7842465d4105, 0x2, 0xc72b1c3324a685aa03f2b9c2e2e4d587303af939ba08754050dcd1cdd555ec6),
   (1, 0xc72b1c3324a685aa03f2b9c2e2e4d587303af939ba08754050dcd1cdd555ec6, 0x11f4976cde2d797fccb9514e3858c906cbbd9f5e520f003c71c209c80725abd1, 0x3fc8835563adb81da05fcaccb0dd40ff244e350bb110af7a8c2d5723f5dbff92),
   (2, 0x196987ef2b5736846a40f993d04007a576c9747081f33ad99b813cf36e1b31c9, 0x3fc8835563adb81da05fcaccb0dd40ff244e350bb110af7a8c2d5723f5dbff92, 0x687ffe42af837eb570d2de918339d3a98cd57f9a836b881c4bc689a95fe1fe5),
   (3, 0x687ffe42af837eb570d2de918339d3a98cd57f9a836b881c4bc689a95fe1fe5, 0x44279ac8f3c57b2aa1638aca9d27eda6a7df26d8174ec50fde5537739fc1121, 0x3022a5a6ba3d1d67ad8d6a58266ef0e6523107ba7825dd1338916ef28dbeaf0b),
   (0, 0x3001daa5b88ccbce73cf5b35f3197dd1b3ca29c1bc8d0bf5389d7842465d4105, 0x15d75dec41535a4f2aaaf5f7b0d44ccbc62690d382dc70265770a23639f15271, 0x2dcc91c76e5e024202d60967e57fa7d6945445ebb350444e186218e0f83a0f65),
   (1, 0x2dcc91c76e5e024202d60967e57fa7d6945445ebb350444e186218e0f83a0f65, 0x11f4976cde2d797fccb9514e3858c906cbbd9f5e520f003c71c209c80725abd1, 0x2df1d1a589b49c9c50c118b847766675c9a3541092fbf61e8be03ba86b29860b),
   (2, 0x196987ef2b5736846a40f993d04007a576c9747081f33ad99b813cf36e1b31c9, 0x2df1d1a589b49c9c50c118b847766675c9a3541092fbf61e8be03ba86b29860b, 0xb1d3c47c099254c6b9191f4b5192fca399d5a14a7a02dced4607b3dee4ab42e),
   (3, 0xb1d3c47c099254c6b9191f4b5192fca399d5a14a7a02dced4607b3dee4ab42e, 0x44279ac8f3c57b2aa1638aca9d27eda6a7df26d8174ec50fde5537739fc1121, 0x1a00984bd6d5502a568507b952d3ffee3c21385fb4195b67b9aa3859dae3a555),
   (0, 0x880f879cdb5cf58a1cfeed90926ceaf1b2a86218c1c645f3f73fa2add2f6f40, 0x2, 0x3dd0e7efafca6fcefda107d3c6828c196148350e8fd1ba5192e8ccb3b7a38c41),
   (1, 0x2dcc91c76e5e024202d60967e57fa7d6945445ebb350444e186218e0f83a0f65, 0x3dd0e7efafca6fcefda107d3c6828c196148350e8fd1ba5192e8ccb3b7a38c41, 0xfee72e9f1686ff36d30bc3e973d02d467984ab8056d07c9f4d0be235f61092),
   (2, 0x196987ef2b5736846a40f993d04007a576c9747081f33ad99b813cf36e1b31c9, 0xfee72e9f1686ff36d30bc3e973d02d467984ab8056d07c9f4d0be235f61092, 0xebbfa9bd93c1a2efcf19bc6086b0170b397967ab0ca1a01396bb4a742d1de7),
   (3, 0xebbfa9bd93c1a2efcf19bc6086b0170b397967ab0ca1a01396bb4a742d1de7, 0x44279ac8f3c57b2aa1638aca9d27eda6a7df26d8174ec50fde5537739fc1121, 0x2e67247e0e476f5c37494beb5fcd6ba56eb5b7ce1c8e16b0a8b6daa7111e4301),
   (0, 0x880f879cdb5cf58a1cfeed90926ceaf1b2a86218c1c645f3f73fa2add2f6f40, 0x3f798633c14a37f830bdc61862b5ceaa4f3137406065ecca73dffb9c23538c86, 0x39c9c32ce6c9539f13755f30cb6729c4e6a3938f8c96133a264f4624daedba8b),
   (1, 0x2dcc91c76e5e024202d60967e57fa7d6945445ebb350444e186218e0f83a0f65, 0x39c9c32ce6c9539f13755f30cb6729c4e6a3938f8c96133a264f4624daedba8b, 0x3de79d7680051c0dddcb3fd4f6d98b160a65bae23127bd4ccf21f9843b05cd74),
   (2, 0x196987ef2b5736846a40f993d04007a576c9747081f33ad99b813cf36e1b31c9, 0x3de79d7680051c0dddcb3fd4f6d98b160a65bae23127bd4ccf21f9843b05cd74, 0x15e1a1fe8c700581e40b89463c83241f40e566d878d1b28802ad2bfd878f901),
   (3, 0x15e1a1fe8c700581e40b89463c83241f40e566d878d1b28802ad2bfd878f901, 0x44279ac8f3c57b2aa1638aca9d27eda6a7df26d8174ec50fde5537739fc1121, 0x9ab0e393a3e59476959fddbd6c1703df521b769e1b0a9f244335f9c02019bfb),
   (0, 0x650e94996707a47cebeb5875b0edfa1b1e1006c94444ada0cbc03ad80fba921, 0x2, 0x6a6cf2088696c6574770bd95b8bff64ff4f4ab71e71c87600b788d313efcf6a),
   (1, 0x6a6cf2088696c6574770bd95b8bff64ff4f4ab71e71c87600b788d313efcf6a, 0x11f4976cde2d797fccb9514e3858c906cbbd9f5e520f003c71c209c80725abd1, 0x36becd40da1f1dfacf671620f11e4ee93389efc5cf679de41e1be53ffa55072e),
   (2, 0x36becd40da1f1dfacf671620f11e4ee93389efc5cf679de41e1be53ffa55072e, 0x30d056957683dfe0c3e289ea1c2304b19b5c09c17cabbb3a0464cd14463f41c7, 0x25c79fa95f323b2a3465a41deb57db41ee932bc316a11400c328dbc78ed8c073),
   (3, 0x15e1a1fe8c700581e40b89463c83241f40e566d878d1b28802ad2bfd878f901, 0x25c79fa95f323b2a3465a41deb57db41ee932bc316a11400c328dbc78ed8c073, 0x3df891bea10e4ea654768e12e6bd27420ca0efd31bac24b8e6c88c37a6d0b8bd),
   (0, 0x650e94996707a47cebeb5875b0edfa1b1e1006c94444ada0cbc03ad80fba921, 0x8fa156f808478d923818206ea4024195a62689eff1af26b5c82fa96952ed626, 0x173e56269b68dc2bdf5b409a45e4efd7f55ce3a9c1367e217932675ca3ef8a8b),
   (1, 0x173e56269b68dc2bdf5b409a45e4efd7f55ce3a9c1367e217932675ca3ef8a8b, 0x11f4976cde2d797fccb9514e3858c906cbbd9f5e520f003c71c209c80725abd1, 0x1af246d4b549cbe2a8d32b7e18b33fcc0aba3ce88a9c58377a0577da4ed839aa),
   (2, 0x1af246d4b549cbe2a8d32b7e18b33fcc0aba3ce88a9c58377a0577da4ed839aa, 0x30d056957683dfe0c3e289ea1c2304b19b5c09c17cabbb3a0464cd14463f41c7, 0x3474cb0a5bee800f1dfcaca1aea6f7b92a30fa70113def5b0ea4449cd7deee6d),
   (3, 0x15e1a1fe8c700581e40b89463c83241f40e566d878d1b28802ad2bfd878f901, 0x3474cb0a5bee800f1dfcaca1aea6f7b92a30fa70113def5b0ea4449cd7deee6d, 0x12703a3602243ad2f40a89cd4485e50a5f33239222bac6a1fc80ea87c021c661),
   (0, 0x1d3f53a474f8e375569848bc7b402902ad82ce1cac11d4321c4352d4a2d31408, 0x2, 0x212309838733649a508f84d08b9305083921dd88d41394bef4a7602b42711a64),
   (1, 0x173e56269b68dc2bdf5b409a45e4efd7f55ce3a9c1367e217932675ca3ef8a8b, 0x212309838733649a508f84d08b9305083921dd88d41394bef4a7602b42711a64, 0x11c003465b54508202ba0c6e2bf0d3b1365e10cf74fce73791a91b0847c2ff55),
   (2, 0x11c003465b54508202ba0c6e2bf0d3b1365e10cf74fce73791a91b0847c2ff55, 0x30d056957683dfe0c3e289ea1c2304b19b5c09c17cabbb3a0464cd14463f41c7, 0xcbdf7eb31176feff222e2c72673e3dc025a22a6a11800b1b1f808b8330588b9),
   (3, 0x15e1a1fe8c700581e40b89463c83241f40e566d878d1b28802ad2bfd878f901, 0xcbdf7eb31176feff222e2c72673e3dc025a22a6a11800b1b1f808b8330588b9, 0x22fe1a12b10bf4ded49cfca46181652e29a550333ad5dbfc4949ce361fb81c5f),
   (0, 0x1d3f53a474f8e375569848bc7b402902ad82ce1cac11d4321c4352d4a2d31408, 0x17102339af296c234ce5b4e9f32973cc14384445a68dee437b655dbadddd513d, 0x284192abf4ab3e08dfac0c8d9eecbe99150387f78db99c7831ed74f61f4f0946),
   (1, 0x173e56269b68dc2bdf5b409a45e4efd7f55ce3a9c1367e217932675ca3ef8a8b, 0x284192abf4ab3e08dfac0c8d9eecbe99150387f78db99c7831ed74f61f4f0946, 0xd99ab62023d6fd9ea55ea13969670fc9d96d06a78b6c6b73e5b80d29551c508),
   (2, 0xd99ab62023d6fd9ea55ea13969670fc9d96d06a78b6c6b73e5b80d29551c508, 0x30d056957683dfe0c3e289ea1c2304b19b5c09c17cabbb3a0464cd14463f41c7, 0x3bdd3c4d5e575c29a53f7126f1b29d3ffe6fa05ae4f473134c13c523535b476c),
   (3, 0x15e1a1fe8c700581e40b89463c83241f40e566d878d1b28802ad2bfd878f901, 0x3bdd3c4d5e575c29a53f7126f1b29d3ffe6fa05ae4f473134c13c523535b476c, 0x1adf35e4484b6649764a7cf45c745b090b55bafff72817500d14d3b562139563),
   (0, 0x343144573698bf493ea087f3074670904d82d9298070e19157f4857c35236c73, 0x2, 0x1996237becc10d2d26538148fd5f5b3c9d0b24495fd0dfee7959385394be577c),
   (1, 0x1996237becc10d2d26538148fd5f5b3c9d0b24495fd0dfee7959385394be577c, 0x11f4976cde2d797fccb9514e3858c906cbbd9f5e520f003c71c209c80725abd1, 0x3c3837cda0e310038c65e865f6685fabd34d29ddcef82eaa7fb53897270e2a6f),
   (2, 0xd99ab62023d6fd9ea55ea13969670fc9d96d06a78b6c6b73e5b80d29551c508, 0x3c3837cda0e310038c65e865f6685fabd34d29ddcef82eaa7fb53897270e2a6f, 0xdf8fd5abd3f0c06c88f2caad949b47a7d4b1cd8c5d4421b0e30886ba7ebc962),
   (3, 0x15e1a1fe8c700581e40b89463c83241f40e566d878d1b28802ad2bfd878f901, 0xdf8fd5abd3f0c06c88f2caad949b47a7d4b1cd8c5d4421b0e30886ba7ebc962, 0x35390aedb1c94e55f92326e5dbadfd1dd0f1df6cce7b2904cb1d2e1628157eba),
   (0, 0x343144573698bf493ea087f3074670904d82d9298070e19157f4857c35236c73, 0x1be377068ec85f757ef770d6cf3a554e4b14ecc16b6b01abaef1f6ddac36050c, 0x3fc67a0ec009dd4b5bc0876229e0ecbc6a56143a5eade3de2cfe0be8f85072df),
   (1, 0x3fc67a0ec009dd4b5bc0876229e0ecbc6a56143a5eade3de2cfe0be8f85072df, 0x11f4976cde2d797fccb9514e3858c906cbbd9f5e520f003c71c209c80725abd1, 0x2f8ee3b63a5ce682dff632efbb835eb4fb6b63378feec7f091b1fa591400d4d6),
   (2, 0xd99ab62023d6fd9ea55ea13969670fc9d96d06a78b6c6b73e5b80d29551c508, 0x2f8ee3b63a5ce682dff632efbb835eb4fb6b63378feec7f091b1fa591400d4d6, 0x2319330dac3c4046b76a4c2be31a69e40adbc9f72b145ca28ea51bc0eb93c6ef),
   (3, 0x15e1a1fe8c700581e40b89463c83241f40e566d878d1b28802ad2bfd878f901, 0x2319330dac3c4046b76a4c2be31a69e40adbc9f72b145ca28ea51bc0eb93c6ef, 0x3f24cdeb8acfbb547f66217c337ce47fd4cc672578a4b0b340297ba0e4f420b2),
   (0, 0x258d487b30c26bbc014f91150eb34c43ffb1c2419d78e38f956877304eb459a4, 0x2, 0x49da7454f160a008fe6edf4c36cf4e65038e2c555d5bf372ad980a137895377),
   (1, 0x3fc67a0ec009dd4b5bc0876229e0ecbc6a56143a5eade3de2cfe0be8f85072df, 0x49da7454f160a008fe6edf4c36cf4e65038e2c555d5bf372ad980a137895377, 0xf661dcb263a1400c852d1c1c9cf62ac06b15f809ab68202877cd0b44d659125),
   (2, 0xd99ab62023d6fd9ea55ea13969670fc9d96d06a78b6c6b73e5b80d29551c508, 0xf661dcb263a1400c852d1c1c9cf62ac06b15f809ab68202877cd0b44d659125, 0x34e8009d9531bd8383aa7880db329e177686a31a46020806c886a8cbccdc7035),
   (3, 0x15e1a1fe8c700581e40b89463c83241f40e566d878d1b28802ad2bfd878f901, 0x34e8009d9531bd8383aa7880db329e177686a31a46020806c886a8cbccdc7035, 0x2529d217b78c5da7967951a6ca6b16da5737261b81975fa7b986e8ca20060463),
   (0, 0x258d487b30c26bbc014f91150eb34c43ffb1c2419d78e38f956877304eb459a4, 0x1c71e1e5400a9db929bf96f35940cd6945b906e82fb0f612d7ffa40e38b7d756, 0x271d57b248171415bda6d149ec5efc4e0cce41245ec69ee66853227b78073d74),
   (1, 0x3fc67a0ec009dd4b5bc0876229e0ecbc6a56143a5eade3de2cfe0be8f85072df, 0x271d57b248171415bda6d149ec5efc4e0cce41245ec69ee66853227b78073d74, 0x31fa1c9d9c91d84d5788e8cc789b5891bff65618f18738c1fe29621a44a31b87),
   (2, 0xd99ab62023d6fd9ea55ea13969670fc9d96d06a78b6c6b73e5b80d29551c508, 0x31fa1c9d9c91d84d5788e8cc789b5891bff65618f18738c1fe29621a44a31b87, 0x2206649d4f212735a364ad1bc159a8d54698b5afd2954ad3de16965894338c7e),
   (3, 0x15e1a1fe8c700581e40b89463c83241f40e566d878d1b28802ad2bfd878f901, 0x2206649d4f212735a364ad1bc159a8d54698b5afd2954ad3de16965894338c7e, 0x252baa7edf6fd1ea7a69388a6f4d28c569a9d5b9eccd5df3137c08ab45979acf),
   (0, 0xa3916ea6f8523326becbdb5f94046cbe1e1759ac94ea49990223399f45c1368, 0xe2fe701699512f65caf64ea81ecf0c07d2026671d73a530b49829fb08503178, 0x338177e10b3cd281d4b4ae11f597541a364d00a15d6ed454f9ccd9e4a4694ba3),
   (0, 0xac4adb67bb74317eed1d14092c878f5e677345d101430b496c5303a058894ee, 0x1aac7a167bf1c6d7fc3ed146f44d4d836046263fca5b8c7663f30165f0e7dc9d, 0xbd8854ee699226967c907263e09a38b367249cb74dfe347ee0f7eff0021c03e),
   (0, 0x21a1533fd53b162699d40d283bdf6c8a190fffba9b53a49e765f6f1c811686bd, 0x2, 0x770be9398a42be0dd613ce2ad240b6d04828250b9fc0782bb41f2768a4bec69),
   (1, 0x338177e10b3cd281d4b4ae11f597541a364d00a15d6ed454f9ccd9e4a4694ba3, 0xbd8854ee699226967c907263e09a38b367249cb74dfe347ee0f7eff0021c03e, 0x38562861cf7990f304ece8d0e0e966fdb7f67c394f1f9e73a9711379d9999634),
   (1, 0x770be9398a42be0dd613ce2ad240b6d04828250b9fc0782bb41f2768a4bec69, 0x11f4976cde2d797fccb9514e3858c906cbbd9f5e520f003c71c209c80725abd1, 0x24e542434aaae444d2833d99bed6dd733340ed5d6427d9e389a6f2d80725390b),
   (2, 0x38562861cf7990f304ece8d0e0e966fdb7f67c394f1f9e73a9711379d9999634, 0x24e542434aaae444d2833d99bed6dd733340ed5d6427d9e389a6f2d80725390b, 0x1ae3fae56406c9e6a7c9a5819cb5395193ed41c345d59ce51cd6c463e61c8fef),
   (3, 0x1ae3fae56406c9e6a7c9a5819cb5395193ed41c345d59ce51cd6c463e61c8fef, 0x44279ac8f3c57b2aa1638aca9d27eda6a7df26d8174ec50fde5537739fc1121, 0x3e7347f13dc9cfad602de038d6781ff35cdd70dc47ee99680827e938718fd160),
   (4, 0x3e7347f13dc9cfad602de038d6781ff35cdd70dc47ee99680827e938718fd160, 0x31b4ea3aced9464a3daba756ae9945b86407f3ef514c38f2d4645cb4fefb6a80, 0x11782e445fc653ac03cea9462adad3fcbd91fa96db1c6fffc501a6a2409d9afe),
   (4, 0x31b4ea3aced9464a3daba756ae9945b86407f3ef514c38f2d4645cb4fefb6a80, 0x31b4ea3aced9464a3daba756ae9945b86407f3ef514c38f2d4645cb4fefb6a80, 0x18abed52ed3002af2798f51bc19bedd2c9fc69003699e845c6f0c0f257413e87),
   (5, 0x11782e445fc653ac03cea9462adad3fcbd91fa96db1c6fffc501a6a2409d9afe, 0x18abed52ed3002af2798f51bc19bedd2c9fc69003699e845c6f0c0f257413e87, 0x33b1da86878e83fde13213d4313d44434e2e7f2fad1be58b11c2ca72c5e28d4f),
   (5, 0x18abed52ed3002af2798f51bc19bedd2c9fc69003699e845c6f0c0f257413e87, 0x18abed52ed3002af2798f51bc19bedd2c9fc69003699e845c6f0c0f257413e87, 0x2c4ff95a4f8937220846aa30a8abc6fa8a053125ac1c870ade13a952013ab27),
   (6, 0x33b1da86878e83fde13213d4313d44434e2e7f2fad1be58b11c2ca72c5e28d4f, 0x2c4ff95a4f8937220846aa30a8abc6fa8a053125ac1c870ade13a952013ab27, 0x1ec90e4ca0593a69617a3204758e85a0dcebaf1c47888a4f40fc97387a549199),
   (6, 0x2c4ff95a4f8937220846aa30a8abc6fa8a053125ac1c870ade13a952013ab27, 0x2c4ff95a4f8937220846aa30a8abc6fa8a053125ac1c870ade13a952013ab27, 0x3b13f3906f701d1f8e4ad7221b0555056830523b11374b5ba6a291f13d56144e),
   (7, 0x1ec90e4ca0593a69617a3204758e85a0dcebaf1c47888a4f40fc97387a549199, 0x3b13f3906f701d1f8e4ad7221b0555056830523b11374b5ba6a291f13d56144e, 0x233888f32c426875c5cc61f6f5643575f6805a47b7e80b6291fd6804a5c5c93a),
   (7, 0x3b13f3906f701d1f8e4ad7221b0555056830523b11374b5ba6a291f13d56144e, 0x3b13f3906f701d1f8e4ad7221b0555056830523b11374b5ba6a291f13d56144e, 0x1f3707da6df0e41c6f67045d859633ce55851d4b17f4b74e0f8ad193f9e4bbb3),
   (8, 0x233888f32c426875c5cc61f6f5643575f6805a47b7e80b6291fd6804a5c5c93a, 0x1f3707da6df0e41c6f67045d859633ce55851d4b17f4b74e0f8ad193f9e4bbb3, 0x30725917d9e58fbd4a6aaf87823042855b1ab1c21edd7640d438a70f4c608a1e),
   (8, 0x1f3707da6df0e41c6f67045d859633ce55851d4b17f4b74e0f8ad193f9e4bbb3, 0x1f3707da6df0e41c6f67045d859633ce55851d4b17f4b74e0f8ad193f9e4bbb3, 0xe17bd4c92572b5a39b8bc1c99cbdf79c628ba3fe9279eeb6ad7f0c6e9bdf54e),
   (9, 0x30725917d9e58fbd4a6aaf87823042855b1ab1c21edd7640d438a70f4c608a1e, 0xe17bd4c92572b5a39b8bc1c99cbdf79c628ba3fe9279eeb6ad7f0c6e9bdf54e, 0x55d3530e60329bb319b22e3037d661611602c25a56f04e8f96a88581fc8f0a1),
   (9, 0xe17bd4c92572b5a39b8bc1c99cbdf79c628ba3fe9279eeb6ad7f0c6e9bdf54e, 0xe17bd4c92572b5a39b8bc1c99cbdf79c628ba3fe9279eeb6ad7f0c6e9bdf54e, 0x743b7c639f9a56294bf11831b6a7da417d27c7d6a0dc31ecaf5ebac6825c0a3),
   (10, 0x55d3530e60329bb319b22e3037d661611602c25a56f04e8f96a88581fc8f0a1, 0x743b7c639f9a56294bf11831b6a7da417d27c7d6a0dc31ecaf5ebac6825c0a3, 0x300056bd44f1c0fefaf9df3104c3203f14a65a0421ce5c4e4c9151b5ca0f00c0),
   (10, 0x743b7c639f9a56294bf11831b6a7da417d27c7d6a0dc31ecaf5ebac6825c0a3, 0x743b7c639f9a56294bf11831b6a7da417d27c7d6a0dc31ecaf5ebac6825c0a3, 0x390dd1d2c5662b30f61c6ca9ca404d1db4495decd6ba0516da2261ae0bb3f93e),
   (11, 0x300056bd44f1c0fefaf9df3104c3203f14a65a0421ce5c4e4c9151b5ca0f00c0, 0x390dd1d2c5662b30f61c6ca9ca404d1db4495decd6ba0516da2261ae0bb3f93e, 0x36bfae741fa4bcc41a5d1f1c708555d51dda2dbf840c2336667911585107e5b1),
   (11, 0x390dd1d2c5662b30f61c6ca9ca404d1db4495decd6ba0516da2261ae0bb3f93e, 0x390dd1d2c5662b30f61c6ca9ca404d1db4495decd6ba0516da2261ae0bb3f93e, 0xb9ed98ef64fa6a78488390038e530982d3670de72c1703be6ab93cb0028ae22),
   (12, 0x36bfae741fa4bcc41a5d1f1c708555d51dda2dbf840c2336667911585107e5b1, 0xb9ed98ef64fa6a78488390038e530982d3670de72c1703be6ab93cb0028ae22, 0x34dcb3ce092ebf59b19df6930a1280d99b4e35e6ff5f067068839af18b9b0a2),
   (12, 0xb9ed98ef64fa6a78488390038e530982d3670de72c1703be6ab93cb0028ae22, 0xb9ed98ef64fa6a78488390038e530982d3670de72c1703be6ab93cb0028ae22, 0x1b66b7651dbb92721c035c140d313b05a617c9df9c97b0ed4cc27226d9107118),
   (13, 0x34dcb3ce092ebf59b19df6930a1280d99b4e35e6ff5f067068839af18b9b0a2, 0x1b66b7651dbb92721c035c140d313b05a617c9df9c97b0ed4cc27226d9107118, 0x1e73d8a1ac80b955da2e9e13448d6071b944341818309e312baafe88b5a0b09),
   (13, 0x1b66b7651dbb92721c035c140d313b05a617c9df9c97b0ed4cc27226d9107118, 0x1b66b7651dbb92721c035c140d313b05a617c9df9c97b0ed4cc27226d9107118, 0x3b4564b91762fb4b354bab9090e3fa6611bec6af2c04c20c8b144f36bead983f),
   (14, 0x1e73d8a1ac80b955da2e9e13448d6071b944341818309e312baafe88b5a0b09, 0x3b4564b91762fb4b354bab9090e3fa6611bec6af2c04c20c8b144f36bead983f, 0xd91a112d58e382099977152627ab9dc96a04b32987c3ca65f985c5573ea536a),
   (14, 0x3b4564b91762fb4b354bab9090e3fa6611bec6af2c04c20c8b144f36bead983f, 0x3b4564b91762fb4b354bab9090e3fa6611bec6af2c04c20c8b144f36bead983f, 0xfec4763bc96f603590823c9660544edf425bdb3e0734973f136f90dd1dbf863),
   (15, 0xd91a112d58e382099977152627ab9dc96a04b32987c3ca65f985c5573ea536a, 0xfec4763bc96f603590823c9660544edf425bdb3e0734973f136f90dd1dbf863, 0x3941d93bf8350db8e46677920c17068515b473a5166afdc546402aa87a947783),
   (15, 0xfec4763bc96f603590823c9660544edf425bdb3e0734973f136f90dd1dbf863, 0xfec4763bc96f603590823c9660544edf425bdb3e0734973f136f90dd1dbf863, 0x34dcf5b7ecb1dda089e3cb6d0678e464e5fa8d146835315a886140ac3e168221),
   (16, 0x3941d93bf8350db8e46677920c17068515b473a5166afdc546402aa87a947783, 0x34dcf5b7ecb1dda089e3cb6d0678e464e5fa8d146835315a886140ac3e168221, 0x31fca8a283d6e78149bd390e45a161a5ff29ab6352ca10d3536aae37f94f0360),
   (16, 0x34dcf5b7ecb1dda089e3cb6d0678e464e5fa8d146835315a886140ac3e168221, 0x34dcf5b7ecb1dda089e3cb6d0678e464e5fa8d146835315a886140ac3e168221, 0x31d3a638278b57a2923bc1ac63da2789d61aaa069e1fcdf9f3a3181968c09dbd),
   (17, 0x31fca8a283d6e78149bd390e45a161a5ff29ab6352ca10d3536aae37f94f0360, 0x31d3a638278b57a2923bc1ac63da2789d61aaa069e1fcdf9f3a3181968c09dbd, 0x9b2f02bd1dc95237c62edea4e2e0436f7679accdf5e0de8c855cf6c59b642c5),
   (17, 0x31d3a638278b57a2923bc1ac63da2789d61aaa069e1fcdf9f3a3181968c09dbd, 0x31d3a638278b57a2923bc1ac63da2789d61aaa069e1fcdf9f3a3181968c09dbd, 0x2e8d63c774216c4b093197923c2255d39ce6a93d3386a93b5eb97f3b95ed2cca),
   (18, 0x9b2f02bd1dc95237c62edea4e2e0436f7679accdf5e0de8c855cf6c59b642c5, 0x2e8d63c774216c4b093197923c2255d39ce6a93d3386a93b5eb97f3b95ed2cca, 0xa7f5e50978bec6a2e7b0ce9e9ae182f108650349b65ed70f29fc9245e0d7488),
   (18, 0x2e8d63c774216c4b093197923c2255d39ce6a93d3386a93b5eb97f3b95ed2cca, 0x2e8d63c774216c4b093197923c2255d39ce6a93d3386a93b5eb97f3b95ed2cca, 0x1a4e1a33a59cc1c3bd78771168f6ab8d24ee714d09e0e1aa459e6fb5964b3555),
   (19, 0xa7f5e50978bec6a2e7b0ce9e9ae182f108650349b65ed70f29fc9245e0d7488, 0x1a4e1a33a59cc1c3bd78771168f6ab8d24ee714d09e0e1aa459e6fb5964b3555, 0x12d47778dac0e9d1963f9edb02329a618ca7e1c5bc531980a0f2ef011ac84457),
   (19, 0x1a4e1a33a59cc1c3bd78771168f6ab8d24ee714d09e0e1aa459e6fb5964b3555, 0x1a4e1a33a59cc1c3bd78771168f6ab8d24ee714d09e0e1aa459e6fb5964b3555, 0x5f71033d378bb729e90f578654694e692acc541cacaffdea045a02a4cb09770),
   (20, 0x12d47778dac0e9d1963f9edb02329a618ca7e1c5bc531980a0f2ef011ac84457, 0x5f71033d378bb729e90f578654694e692acc541cacaffdea045a02a4cb09770, 0x80cc054c1b28de21492f22804294a0a9e96e4d89f6063a9bc2c856a256a3397),
   (20, 0x5f71033d378bb729e90f578654694e692acc541cacaffdea045a02a4cb09770, 0x5f71033d378bb729e90f578654694e692acc541cacaffdea045a02a4cb09770, 0x12e36772839eb54c3f50a619a59c57acbe5e8223f7a8610d43b81ff21681de8),
   (21, 0x80cc054c1b28de21492f22804294a0a9e96e4d89f6063a9bc2c856a256a3397, 0x12e36772839eb54c3f50a619a59c57acbe5e8223f7a8610d43b81ff21681de8, 0x37a98ffb3474041268075d7b9603babb94a96e38fd3243aebd1ba55230264560),
   (21, 0x12e36772839eb54c3f50a619a59c57acbe5e8223f7a8610d43b81ff21681de8, 0x12e36772839eb54c3f50a619a59c57acbe5e8223f7a8610d43b81ff21681de8, 0x24d86d9aaaad5838a6d179cb5c2a3b8c80fd3849c9fdc4b896497c7f56e87d15),
   (22, 0x37a98ffb3474041268075d7b9603babb94a96e38fd3243aebd1ba55230264560, 0x24d86d9aaaad5838a6d179cb5c2a3b8c80fd3849c9fdc4b896497c7f56e87d15, 0x14318ac94f0724c1c34589b5f2aeebfb00f1390a397d4f4d41f61f317d3f0c9c),
   (22, 0x24d86d9aaaad5838a6d179cb5c2a3b8c80fd3849c9fdc4b896497c7f56e87d15, 0x24d86d9aaaad5838a6d179cb5c2a3b8c80fd3849c9fdc4b896497c7f56e87d15, 0xb5d7773fe73ed739820ebe6eafc1859278bf9c49546122cc12061cd51ce1ffe),
   (23, 0x14318ac94f0724c1c34589b5f2aeebfb00f1390a397d4f4d41f61f317d3f0c9c, 0xb5d7773fe73ed739820ebe6eafc1859278bf9c49546122cc12061cd51ce1ffe, 0x10d4d1f2fa67b64b754a6c9c71931210045d78a443dcd059d9bb53cc5aea4887),
   (23, 0xb5d7773fe73ed739820ebe6eafc1859278bf9c49546122cc12061cd51ce1ffe, 0xb5d7773fe73ed739820ebe6eafc1859278bf9c49546122cc12061cd51ce1ffe, 0x2d0a3ab6ae0a5a33b346835b4e3252b137ff3010fa0c4df7692601122998911f),
   (24, 0x10d4d1f2fa67b64b754a6c9c71931210045d78a443dcd059d9bb53cc5aea4887, 0x2d0a3ab6ae0a5a33b346835b4e3252b137ff3010fa0c4df7692601122998911f, 0x1fcd0413b33e38aab85119809b67d756110fbb508f09a5a9bde3953168ebc5d1),
   (24, 0x2d0a3ab6ae0a5a33b346835b4e3252b137ff3010fa0c4df7692601122998911f, 0x2d0a3ab6ae0a5a33b346835b4e3252b137ff3010fa0c4df7692601122998911f, 0x22559754c745c606ec0a54140795eda7bebfbb3c18961393a37df12af515ec5d),
   (25, 0x1fcd0413b33e38aab85119809b67d756110fbb508f09a5a9bde3953168ebc5d1, 0x22559754c745c606ec0a54140795eda7bebfbb3c18961393a37df12af515ec5d, 0x2f919b1c11f190113a09c0801bb4a924724619c283a197c5be3e11f93ae9dfcd),
   (25, 0x22559754c745c606ec0a54140795eda7bebfbb3c18961393a37df12af515ec5d, 0x22559754c745c606ec0a54140795eda7bebfbb3c18961393a37df12af515ec5d, 0x258a081b5900f6074c3a94da3cc613b61758cc331d94ee75ab3b461dd92aaee8),
   (26, 0x2f919b1c11f190113a09c0801bb4a924724619c283a197c5be3e11f93ae9dfcd, 0x258a081b5900f6074c3a94da3cc613b61758cc331d94ee75ab3b461dd92aaee8, 0x2cd72d8c333f89eda89e276d92ca699262b035841cb7b703af1903a0f855a772),
   (26, 0x258a081b5900f6074c3a94da3cc613b61758cc331d94ee75ab3b461dd92aaee8, 0x258a081b5900f6074c3a94da3cc613b61758cc331d94ee75ab3b461dd92aaee8, 0xf06d046da76daf00097e8af438215b183a518a5f423687696f5ce71e3de3fd5),
   (27, 0x2cd72d8c333f89eda89e276d92ca699262b035841cb7b703af1903a0f855a772, 0xf06d046da76daf00097e8af438215b183a518a5f423687696f5ce71e3de3fd5, 0x2176a69e883c33fe204870333f115a16dcb3a2a11eedfcf3675f006ebe98fd33),
   (27, 0xf06d046da76daf00097e8af438215b183a518a5f423687696f5ce71e3de3fd5, 0xf06d046da76daf00097e8af438215b183a518a5f423687696f5ce71e3de3fd5, 0x2ed66b6b6f8f29b6b3f625e8fe886221ebec30c729e8619a4c91e7ef4c44d215),
   (28, 0x2176a69e883c33fe204870333f115a16dcb3a2a11eedfcf3675f006ebe98fd33, 0x2ed66b6b6f8f29b6b3f625e8fe886221ebec30c729e8619a4c91e7ef4c44d215, 0xcee31964cd7f4d33ddd19a60b06c90b26febbbcc2cbc8c702aaebf74500e77b),
   (28, 0x2ed66b6b6f8f29b6b3f625e8fe886221ebec30c729e8619a4c91e7ef4c44d215, 0x2ed66b6b6f8f29b6b3f625e8fe886221ebec30c729e8619a4c91e7ef4c44d215, 0x3f25121b0218dc6cf514fdb8e5d9a3b685d60e6b6baa837aea10aaa017a6574c),
   (29, 0xcee31964cd7f4d33ddd19a60b06c90b26febbbcc2cbc8c702aaebf74500e77b, 0x3f25121b0218dc6cf514fdb8e5d9a3b685d60e6b6baa837aea10aaa017a6574c, 0x2a67ec46474ca1bf81dcb65f7e074ba0ffbb7be1db3cb50b2920379cf5de6df8),
   (29, 0x3f25121b0218dc6cf514fdb8e5d9a3b685d60e6b6baa837aea10aaa017a6574c, 0x3f25121b0218dc6cf514fdb8e5d9a3b685d60e6b6baa837aea10aaa017a6574c, 0x27ba14a06cf07323de77da59259e3523acb269d955be20791a83bd195c91d43f),
   (30, 0x2a67ec46474ca1bf81dcb65f7e074ba0ffbb7be1db3cb50b2920379cf5de6df8, 0x27ba14a06cf07323de77da59259e3523acb269d955be20791a83bd195c91d43f, 0x3154d6e0c03e19f2cec0bcc0283f86db82864011aa69955987d115e689aaa608),
   (30, 0x27ba14a06cf07323de77da59259e3523acb269d955be20791a83bd195c91d43f, 0x27ba14a06cf07323de77da59259e3523acb269d955be20791a83bd195c91d43f, 0x2a4c109fe28f5c71f7bda83f74ec8b684cb90e8462772b224449ee07cd63d087),
   (31, 0x3154d6e0c03e19f2cec0bcc0283f86db82864011aa69955987d115e689aaa608, 0x2a4c109fe28f5c71f7bda83f74ec8b684cb90e8462772b224449ee07cd63d087, 0xe7f529ccc28cf287b132d64d0f75fc60c2e642e2891ebcd8b3f87602dbe75c8),
   (31, 0x2a4c109fe28f5c71f7bda83f74ec8b684cb90e8462772b224449ee07cd63d087, 0x2a4c109fe28f5c71f7bda83f74ec8b684cb90e8462772b224449ee07cd63d087, 0x2fd8e51a03d9bbe2dd809831b1497aeb68a6e37ddf707ced4aa2d8dff13529ae)]

set_option maxRecDepth 100000 in
theorem hashesOk_merkleHashes : hashesOk merkleHashes = true := by decide +kernel

set_option maxRecDepth 100000 in
theorem merkleOk_all : (merkleVectors.zip [merkleLevels0, merkleLevels1, merkleLevels2, merkleLevels3, merkleLevels4,
    merkleLevels5, merkleLevels6, merkleLevels7, merkleLevels8, merkleLevels9, merkleLevels10, merkleLevels11,
    merkleLevels12, merkleLevels13, merkleLevels14, merkleLevels15]).all
      (fun x => merkleOk merkleHashes x.1 x.2) = true := by decide +kernel

/-- All vectors of `merkle_path.rs` agree with the tree of the specification over the hash of the crate: the root and
all sixteen authentication paths. -/
theorem merkle_vectors : ∀ v ∈ merkleVectors, v.Agrees Prims.zcash := by
  intro v hv
  have hm : merkleVectors = (merkleVectors.zip [merkleLevels0, merkleLevels1, merkleLevels2, merkleLevels3,
      merkleLevels4, merkleLevels5, merkleLevels6, merkleLevels7, merkleLevels8, merkleLevels9, merkleLevels10,
      merkleLevels11, merkleLevels12, merkleLevels13, merkleLevels14, merkleLevels15]).map Prod.fst := rfl
  rw [hm, List.mem_map] at hv
  obtain ⟨x, hx, rfl⟩ := hv
  exact merkleOk_sound hashesOk_merkleHashes (List.all_eq_true.1 merkleOk_all x hx)

set_option maxRecDepth 100000 in
/-- The vectors describe one tree growing by a leaf at a time, as in `tree.rs:306-314`; leaves not yet appended are
`UNCOMMITTED_ORCHARD`. -/
theorem merkle_vectors_grow : ∀ i < 16, ∀ k < 16, ((merkleVectors.getD i merkle0).leaves.getD k 0) =
    if k ≤ i then merkle15.leaves.getD k 0 else 2 := by decide +kernel

set_option maxRecDepth 100000 in
theorem incrementalOk : stepsOk merkleHashes 0 incrementalLevels = true := by decide +kernel

/-- `tree.rs:352-400` `anchor_incremental`: the tree of height 32 with these five leaves has the expected root. -/
theorem anchor_incremental :
    Spec.node Prims.zcash (fun i => (incrementalLeaves.getD i 2 : ℕ)) Constants.MERKLE_DEPTH 0 = (incrementalAnchor : ℕ) :=
  stepsOk_sound hashesOk_merkleHashes (fun i => ((incrementalLeaves.getD i 2 : ℕ) : Fp)) incrementalLevels 0
    incrementalOk (fun i => rfl) 32 (by decide) 0

end Orchard.Vectors
