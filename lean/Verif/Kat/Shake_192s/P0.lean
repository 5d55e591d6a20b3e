import Verif.Kat.Nums
import Verif.Proof.KRfl
import Verif.Kat.OpsK
import Verif.Kat.Shake_128s.P4
/-!
# Known answer for shake_192s: parts of the signature, checked by the kernel

Written by tools/katgen.py from testvector.h.
-/
set_option Elab.async false
noncomputable section
namespace Kat.Shake_192s
open Spec Spec.Slh Model

abbrev P : Params := PsName.shake_192s.P
abbrev hf : HashFns := PsName.shake_192s.fns
def sk : List Nat := [0x706050403020100, 0xf0e0d0c0b0a0908, 0x1716151413121110]
def prf : List Nat := [0x1f1e1d1c1b1a1918, 0x2726252423222120, 0x2f2e2d2c2b2a2928]
def pk : List Nat := [0x3736353433323130, 0x3f3e3d3c3b3a3938, 0x4746454443424140]
def root : List Nat := [0x24ca8e5d957f24eb, 0x4d2c6bc5360586a5, 0x2d7db25e838e8d1e]
abbrev skB : Bytes := K.enc8 sk
abbrev pkB : Bytes := K.enc8 pk
def O : Ops := K.ops 3 [0x3736353433323130, 0x3f3e3d3c3b3a3938, 0x4746454443424140] [0x706050403020100, 0xf0e0d0c0b0a0908, 0x1716151413121110]
theorem snd : Sound O K.enc8 hf pkB skB := K.sound 24 3 rfl (by omega) _ _ (by decide) rfl (by decide)

/-! ## FORS -/

def ids : List Nat := [0x29e4, 0x1bda, 0x37ec, 0x23b7, 0x1be2, 0xc60, 0x1eeb, 0xa58, 0x2308, 0x276f, 0x2eb6, 0x3bd7, 0x293f, 0x1b6f, 0xdd9, 0x19fd, 0x338d]
theorem ids_lt (i : Nat) : ids.getD i 0 < 2 ^ P.a := by
  rw [List.getD_eq_getElem?_getD]
  by_cases h : i < ids.length
  · rw [List.getElem?_eq_getElem h, Option.getD_some]
    exact of_decide_eq_true (List.all_eq_true.1 (show ids.all (fun x => decide (x < 2 ^ P.a)) = true by decide) _ (List.getElem_mem h))
  · rw [List.getElem?_eq_none (by omega)]; decide
def fs0 : List (List Nat) := blks 64 3 15 0xa092876e82549d08ac3ee952f567e79247aa7eab64f4dd40c307686cad73640070cc387bf561b6afb96a0eb4090b7af89768dfb290b85f905d4c2bd858a90cb0b6864d8c349842cad0d7630f0ffcc5ccea39aa2f85dfde488ad21c5bc51b64d43e8be315543e69b0abe3a92d1876b0e84567df8ea5fcbfbd9e8353b637ad6e9a8212bf67a2cb2dc556258cd602726b5b5c6f410241790088d4b6824f2f4d754486676f39f95efa4b9291b370a3328d85f0cd281d816d729da8c74393c0852f9559dea834bb5dd35c14b8bfa29dd88b23273506a5bd55adc6d6d89fd9c3b5597d26a2b77c482f93f5f5e7995497787f741a4fc19821ca2e1de688c132b32e6b7b65e6e026daf073520e2b5544015a076cb0003297ac2accaacd2fe3ccccffb35ee85afbe242119d8b7b115e93e20f337044de179dcaf0f76aa53b471afa8a567bead19298d03de15d34e822152a40af2eccaa3cae39cba2870641a3b6575520b1d3fcbf11211ebdc4
def fr0 : List (List Nat) := blks 64 3 1 0xa424f485f02587c264e90677cb135e178988618b96f94e56
theorem fc0 : eqLL (forsP O 14 0 1 8735687204237042 315 ids) (fs0 ++ fr0) = true := by krfl
theorem fp0 : ForsPart K.enc8 hf pkB skB P 8735687204237042 315 ids 0 1 fs0 fr0 := fors_part snd P (by decide) _ _ (by omega) (by omega) _ ids_lt _ _ (by decide) _ _ (by decide +kernel) fc0
def fs1 : List (List Nat) := blks 64 3 15 0x335868ef5e4a9f5f6ebf1ba76a4e6ff2c7140bbf1fbfb5b8e6c9538f4420073ec8d3fda0dd9ba9ce088b4295683d49401866b30793ce231714fd23d9c139155047fffd6c94acaa85e2754e8f5b3f6e50cd3e839a45e5b762c892ce85cbed8b3df2577f8cb0df4b3c14d72dd0f6327edb9fbc0f0f6e691cb6bf7d2ad4e95592250c82bfd8afb0032955b854736dfd5204268aa0c65d688260badc94112b51afa5f1795020ce31e2d36c30153a58fdfb6a2bdd5a707ed4ec83e5bcddd21cd2578cdbb32e8468ef6aae8826b98a0fe45093436067212bfc3bea549778ff4a65b9f63f46f617cbe0c488866b3c8da5ec49d19b354b18bdd96a1243b0c14e72bff3028d1f488fee8ad0cf8aaef58ed3d2f185901556989d0e6439ddbcde8cf999c4b58a86c90186dbe7c9bf8eeed8ef4d9d010a74c14cae79e75f639369f7cfd4c4b8a9c90d7298cd94c5bde422d3abf2ef044820974b8d6164de9baab8096e89575d5fff05b84f6ad24e
def fr1 : List (List Nat) := blks 64 3 1 0x227322fe6e05aa70acd4d91e7cee17a436ba998305bee53a
theorem fc1 : eqLL (forsP O 14 1 1 8735687204237042 315 ids) (fs1 ++ fr1) = true := by krfl
theorem fp1 : ForsPart K.enc8 hf pkB skB P 8735687204237042 315 ids 1 1 fs1 fr1 := fors_part snd P (by decide) _ _ (by omega) (by omega) _ ids_lt _ _ (by decide) _ _ (by decide +kernel) fc1
def fs2 : List (List Nat) := blks 64 3 15 0x5aed96942297114ebf8de8cda01fd606c52cb73cdb35b8f45ff56d1d1841844819b44ebc1cea57a0ad3c6a0b3aff93aeaa1734c6b2039534817941271f9f14be8448657366d5562625f73a48987c876faff9271fd4bd88dfcec50b737824f1b64af47ca30c39dd256ff62fb5a71bd610747133148136573b9426aa48191ad58dd0aaac634b38c51ee963985442e7a4b6884631b9af5798eb993f733027509ac65205c1f5809348319b07f90396d841a1ac100449dbd76aea008051bc82416db0fdc563d8853c660a16ecbe4358142a87f4b13975b7c1baf24a1ad296ab03f060593a9f46f2b74a32517a4f99931802d13112159c52e63930ccf401d4917ebc5ac6df5e7d3399c2506b2c29e1d56a9feefd2fc3ac6bb50b4e53bf273da54f20305e4911bf406243aab6eef8463654c851ff138460b6acccaa439d207ea2438c04641c6f93caa6ef8cffff78f1cdd98c01d01b3a5670db308e2c83730f97032a6fe7efaedf91802ec9
def fr2 : List (List Nat) := blks 64 3 1 0x98443eaeb29c94da9bf35090a06edb0575599cb85e4ed1e0
theorem fc2 : eqLL (forsP O 14 2 1 8735687204237042 315 ids) (fs2 ++ fr2) = true := by krfl
theorem fp2 : ForsPart K.enc8 hf pkB skB P 8735687204237042 315 ids 2 1 fs2 fr2 := fors_part snd P (by decide) _ _ (by omega) (by omega) _ ids_lt _ _ (by decide) _ _ (by decide +kernel) fc2
def fs3 : List (List Nat) := blks 64 3 15 0xe311200e0c24db1d76fe3cfc531b28de8812a88c0be3c19fc6adeb71545cdb320a416d0f06f43b671a395d2b03867b6542bdac7d71a19ababa2d05f7f3f9eefe969ff1fc8559410f29e839d3bd50da1bea474769e268051fae738941f2b9fb74a0e222ee228a1f0adf6b96b928e5e5525565ebd1261504805e4eabf5b7bc7930c1a95fe5d07533913c14d47d95c043383b5c4593d143613b8699f40a1f72f7768c73748837280f8f454de527e7450cf4718a753cf63e928f958435964d49efcca6fc0a62262b6b3fe61297950561958b95e9a5d7e0ca4e8e50bbe6e620bb2a879d0c603f8ae4cc452bb7233cfec0a1b394e936ea916a70f2dbd7177576b040ecf46150b4c32fa5dbe3ad5d3ee54be1a0398f173d6bf818d76a57232315aaa07bd73da0adac37f95b9b1cc81844334667e6a6b61fa853759f7e19ed3253f8985251f56c79f05c88ed5e2a157a9173a9a02e8791721e84c7748bd24108d37665b8279923206fa15100
def fr3 : List (List Nat) := blks 64 3 1 0x3117f825f1c02b1ae9a742321f25d80e570d1f74d8505dbd
theorem fc3 : eqLL (forsP O 14 3 1 8735687204237042 315 ids) (fs3 ++ fr3) = true := by krfl
theorem fp3 : ForsPart K.enc8 hf pkB skB P 8735687204237042 315 ids 3 1 fs3 fr3 := fors_part snd P (by decide) _ _ (by omega) (by omega) _ ids_lt _ _ (by decide) _ _ (by decide +kernel) fc3
def fs4 : List (List Nat) := blks 64 3 15 0x387db53e9d6e1db89d07a705e6c7fd261e67a39d7fcbcc3d2d737e5d8018fd88d219782c608feab601e381369de862ce06009252b4c1ab4a2705a0c5ebbcabcfd57db236347b95f5db6854372d62ae6c7a7ba342134baaf0ff7d0ed7de7582d28298b44a9dde2956b156ddb6196da27132949f38c4f9915be5dc08bef9cc155fd7514a191127159a04e1639cddc4e9755da669709b78d0b63bbfc9b7fa9d6ff40729d500b671c92cb5a72603d5bb139c0fa8ce4ed42d84937ce3a0bf158472e16dad217934b4d3ebc4c0ad73c4906f1a74ea8e33dcefd88953d99d5b9461101c12cad4c4a3ee1a4d09a9c5c5dd8e7d0d2abc3fd107edc9d0cf48247cd79173870bee0fd749aab7b6f50f4c40d3534b3427ea1d926852372e6962f399324688ca70dac2d45872aeace6ce1234db307a6c2c5977b2b343bba834c3daef2c25f241e7fae22589aa6216bb293d67ee4b749c79352715c382d926f131b3829f0071e99d384c4012ab9a1d
def fr4 : List (List Nat) := blks 64 3 1 0xc83ad19ce03d42c33272a56d6c12af8be1cb06937011ddf7
theorem fc4 : eqLL (forsP O 14 4 1 8735687204237042 315 ids) (fs4 ++ fr4) = true := by krfl
theorem fp4 : ForsPart K.enc8 hf pkB skB P 8735687204237042 315 ids 4 1 fs4 fr4 := fors_part snd P (by decide) _ _ (by omega) (by omega) _ ids_lt _ _ (by decide) _ _ (by decide +kernel) fc4
def fs5 : List (List Nat) := blks 64 3 15 0x26b61462efe169b7ad75bb690f4f9254fae80ac66cca56c69a075cc6452bec575deb1fa75e4e03535988afbd6cb4809ed6e5c3fe9e3b22f7cb57cc0f50bb929db6f5329f9c6f5e1ce376f0b593b090996765588b17dc045db52dd02e58305589b86ad14979b17bb76f854b47d4d5f50131a5ab79ef1ea9859ec3f7294fb7552295b7750eba9967930c308f16ca284a2cdbf9b6ad4f49f85a2dc42f56b983afb17ffecbcb9c7e4bceedae5153bda1472b50527bf10cfdaf9316f7b23472754e7fb807ad5d239c0388d3d3773e35e9a6bb45859c77474c4cc80aedd03d57a478549b578d0fe95888973c19c52e655ea379443ba9080523f53d371b39d374b529f2a4f322a0e7952eacc60dcafe2be114026d60fb95a0634e2c18a787d66b1d96fad497df8c93b85113a7c97f5ce0242ad34a14d8806361b1287ba594bfb9c2f2412639dd13f8d6925fecf672f102530d97c3f921dd92b81f3ea26b58f1e327089c1c51449c7b4bc2a9
def fr5 : List (List Nat) := blks 64 3 1 0xa314b8a78a201570b2b3a85d9ab37cafe6d347a145e884ec
theorem fc5 : eqLL (forsP O 14 5 1 8735687204237042 315 ids) (fs5 ++ fr5) = true := by krfl
theorem fp5 : ForsPart K.enc8 hf pkB skB P 8735687204237042 315 ids 5 1 fs5 fr5 := fors_part snd P (by decide) _ _ (by omega) (by omega) _ ids_lt _ _ (by decide) _ _ (by decide +kernel) fc5
def fs6 : List (List Nat) := blks 64 3 15 0xab1d8307dada2accac78b6e2addad5830a031d73751647476dae33ddd3fdc0d4375ac8015c089df82c0972b309ce10e8a466cd1d1f0d4df92c9e34f968ff016d6c1b78c0cbc7ddb1fdcb78d87ca19cf770f6b30abd3b1b098391ddc6cd8cd96307a86bf404066cc4a60ff1d1c10c2e56d3aea7e545aedfbd5043d7680c4a8db90cb79e3691fd9631e809e79bb532926c22cbf1a9805f32d431515b6bbe66d2e7902ab7ef73fef2d60d0c71cca6255b859c653864f7440160550e2fcc5ba7847297bdf882441db0da7da92a04627503d0fd782019c7767ae53c42e426797e7b0733c550cd124b5432db3345d732471db156eb3bb0d064af0c2802b1cb5537d89f6becfc8691a9de9b65a7cbbb164c362057223ecb9a3b9d03e4ec9a227f91ed25aa511acdc7d3750b43b2a1244199403aadf99f099550c8a994b58667b10ca0785af118d2427eba1f0d992cc2f13e05579678fe44eaf45fb699b7493f3b4d43a81e5b569381602348
def fr6 : List (List Nat) := blks 64 3 1 0x5b3fdcf9acf2293f626790fedfd7c494c58ab9a88e802ec3
theorem fc6 : eqLL (forsP O 14 6 1 8735687204237042 315 ids) (fs6 ++ fr6) = true := by krfl
theorem fp6 : ForsPart K.enc8 hf pkB skB P 8735687204237042 315 ids 6 1 fs6 fr6 := fors_part snd P (by decide) _ _ (by omega) (by omega) _ ids_lt _ _ (by decide) _ _ (by decide +kernel) fc6
def fs7 : List (List Nat) := blks 64 3 15 0xcf21d76ddc77a0f5febc4b866c0dbe5ad260a6b97e49aa2185ef0740173fbedcce9a28e4f825a6c9c04e3a46fffb4e5ff5000e05f0656dcedf6b04c0584d78027cdcc6708ef660504f7a5f948ad601f80f1e5a88ec1829c57682c248b1a9ce31c4cd085365e3181d27de5dd8db0f3e903b4edcc3307a19624b24ba5ce14e7e5e3c7ee9e52fcd05196daf8a36663aaa5cdd290a0f8e1940c319e52d478519b435d359f178054dcdb77c970975a3dab26280b90ea4a2e0bd8be2f4f8632bc15e8118d07f60d98c3f95886f18b7e5e7cba646ef0aed00135fd9c170d73ba75adf5fc66f993497fbfb361dd62c028747900e40960daa5f43b85f2f03f2a16cd6ba88e558b109d83d862b61574bc1b04ef3f9e9e889c0c5d14750652dc071d4bac9e1761e2b0801c509a11887dc0bae04187a2ccd466909de09dc5b5814af8f919db4fe9bbe1cc2976a47f1eedadde4eae1eba194f56d207332c55e7eae72b48d00e695994ab7ea9aca19
def fr7 : List (List Nat) := blks 64 3 1 0xc54906af8e20ae290481d623b1e6317af674c9fdd6175bd5
theorem fc7 : eqLL (forsP O 14 7 1 8735687204237042 315 ids) (fs7 ++ fr7) = true := by krfl
theorem fp7 : ForsPart K.enc8 hf pkB skB P 8735687204237042 315 ids 7 1 fs7 fr7 := fors_part snd P (by decide) _ _ (by omega) (by omega) _ ids_lt _ _ (by decide) _ _ (by decide +kernel) fc7
def fs8 : List (List Nat) := blks 64 3 15 0x4ef4c6d811ab29d4c0f53db67dc886aed731f6433d8b3be48d0e83ac290209e039498567fad5a42774d98bba153231880707fba3090462ec7a94092039dfd44127403fba4254354253a247eb91049dc792fd6ae81d4991333dd9034de24f9fab7e2eeba7a4ebd72d90f0a7fac7167c4d0f48a7abdf7ec3f8f67041480288f314c446dc3775f31e1154ac8aad2e88daa36cdbbe8f47a6e3557b6210e42ca93e38a8746fdac4cca8c8dafe9ba893e8e4a711ec91eb3cec77f398573da6a9da5af82717dc24c62b6882325e2f63e150ed960b244ae78990c646b709ae5d3229b80bd5b39201a7ba74e0a0e93f85f9412d2785fc459715e6197b1c65653fd7d344679c6bb78d7744184490930dd9d41a227a92e78b09f9a9efcb2e58e4b23315f01b74e1546c25dab37cc3a7e936e8791669c454e0007ef5d0e4d351b20fbc44490c95a27f3fdc106f3aeb41002a9a1af01ed77adc2c2d64a474a7c2e0700ba93a18f443fd9af6861c72
def fr8 : List (List Nat) := blks 64 3 1 0xac2941c3edca22d00c47cf0b8703344e90cfd3312fde0a7f
theorem fc8 : eqLL (forsP O 14 8 1 8735687204237042 315 ids) (fs8 ++ fr8) = true := by krfl
theorem fp8 : ForsPart K.enc8 hf pkB skB P 8735687204237042 315 ids 8 1 fs8 fr8 := fors_part snd P (by decide) _ _ (by omega) (by omega) _ ids_lt _ _ (by decide) _ _ (by decide +kernel) fc8

end Kat.Shake_192s
