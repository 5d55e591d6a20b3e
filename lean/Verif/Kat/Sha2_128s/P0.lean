import Verif.Kat.Nums
import Verif.Proof.KRfl
import Verif.Kat.Ops256
import Verif.Kat.Sha2_256f.P3
/-!
# Known answer for sha2_128s: parts of the signature, checked by the kernel

Written by tools/katgen.py from testvector.h.
-/
set_option Elab.async false
noncomputable section
namespace Kat.Sha2_128s
open Spec Spec.Slh Model

abbrev P : Params := PsName.sha2_128s.P
abbrev hf : HashFns := PsName.sha2_128s.fns
def sk : List Nat := [0x10203, 0x4050607, 0x8090a0b, 0xc0d0e0f]
def prf : List Nat := [0x10111213, 0x14151617, 0x18191a1b, 0x1c1d1e1f]
def pk : List Nat := [0x20212223, 0x24252627, 0x28292a2b, 0x2c2d2e2f]
def root : List Nat := [0x990ce629, 0x8792b128, 0x846a8e4a, 0x3a68954c]
abbrev skB : Bytes := S256.enc4 sk
abbrev pkB : Bytes := S256.enc4 pk
def O : Ops := S256.ops ⟨0x2f6a9099, 0x4be26eb9, 0xfaa42d3f, 0x647f86eb, 0x9885b7ff, 0xe37fea71, 0x46f7b1c0, 0xbcf6d0ae⟩ 4 [0x10203, 0x4050607, 0x8090a0b, 0xc0d0e0f]
theorem snd : Sound O S256.enc4 hf pkB skB := S256.sound 16 4 rfl (by omega) _ rfl ⟨0x2f6a9099, 0x4be26eb9, 0xfaa42d3f, 0x647f86eb, 0x9885b7ff, 0xe37fea71, 0x46f7b1c0, 0xbcf6d0ae⟩ (by decide +kernel) _ rfl (by decide)

/-! ## FORS -/

def ids : List Nat := [41, 0x805, 819, 796, 0x92c, 0x9eb, 0xca8, 0x8c9, 0x91f, 84, 642, 177, 0xbbf, 0xa6d]
theorem ids_lt (i : Nat) : ids.getD i 0 < 2 ^ P.a := by
  rw [List.getD_eq_getElem?_getD]
  by_cases h : i < ids.length
  · rw [List.getElem?_eq_getElem h, Option.getD_some]
    exact of_decide_eq_true (List.all_eq_true.1 (show ids.all (fun x => decide (x < 2 ^ P.a)) = true by decide) _ (List.getElem_mem h))
  · rw [List.getElem?_eq_none (by omega)]; decide
def fs0 : List (List Nat) := blks 32 4 13 0x11a9a589524c364ed535182015e49738292401132749d1b7c06e99cc2deadd2203656c084d42775fba6277a850ddcbabc7b92b141a0a896cb0d79616fd2eddfd1688b7cded15ce30fed8fee09586fd7c660b550b561968b3e962cec9afa94e9bd7895dc8f1f6e07756b696e873d830cfde0d7f7c66a5ebaeabe446a1efb1add5a60697b14029dc01f7bb6301fb8944d7d53a50f0560edc9f14508b7c008900268e72552433abf93198aa4f73ca71050ed07a905d541636158a4325d8e8229b6cf6f4f83cbd2a69d7ce7e4aa7efcd38a9
def fr0 : List (List Nat) := blks 32 4 1 0x7a0fd40bd2e7003a389ed1f4bbffbd20
theorem fc0 : eqLL (forsP O 12 0 1 11876801714032290 451 ids) (fs0 ++ fr0) = true := by krfl
theorem fp0 : ForsPart S256.enc4 hf pkB skB P 11876801714032290 451 ids 0 1 fs0 fr0 := fors_part snd P (by decide) _ _ (by omega) (by omega) _ ids_lt _ _ (by decide) _ _ (by decide +kernel) fc0
def fs1 : List (List Nat) := blks 32 4 13 0x27fa0f11645884ba4815f581486ef857ccfa155e9bea173e13e21a3d498b4a2efe8cfd2c1d87fe5e589e60a32aeb7eab8b904db30e31c1d2f5ecc0e612c4ccd74d39f8d3b15e39b0e2c78985a983570582fd210e3d939bfac24ae893da1a4e676a0d60b3735416443c621b00240dcdabf39fec5378249140a509360046fa32c0c6a2991fa80d6414189e958409351a745a33089090e4dffa2be56fb7a0d96649319d02e98165feaac230e214f48a6e5fc55e21a95b7d500b16655209d5df56bef38f0bfb139d7a76b8ee3aa45fc81bcd
def fr1 : List (List Nat) := blks 32 4 1 0x49cf31c40f600935e716ca85adc472dd
theorem fc1 : eqLL (forsP O 12 1 1 11876801714032290 451 ids) (fs1 ++ fr1) = true := by krfl
theorem fp1 : ForsPart S256.enc4 hf pkB skB P 11876801714032290 451 ids 1 1 fs1 fr1 := fors_part snd P (by decide) _ _ (by omega) (by omega) _ ids_lt _ _ (by decide) _ _ (by decide +kernel) fc1
def fs2 : List (List Nat) := blks 32 4 13 0x5511c802dc7ecac36ba83e0f5ddada89410bbb65e2955f2536f8754d3a66256654002fc4d7187bc72d643abf85b5e178343455093bd2a3ee310cbeac20e2baa0d9f1101d00f20e13e8cba09e988a70925b2f30fe4e7ec71f53283828cc98a0b6e1ac1d094be6b58f0b02eb6fb27c2791ca7475e1e066a5758ec7ea57bf60857617e859d548ec9c1ca4b529b44a2ef009a8821ea424f494a1491580e080d3aa507f67741be47bb2e3966cf971efc97804fe676155ccb1f1b50b1415da22d57642160379330a980df774b77d43cb8c40f9
def fr2 : List (List Nat) := blks 32 4 1 0x345ef9293bdcfde91c24e3ea74be649d
theorem fc2 : eqLL (forsP O 12 2 1 11876801714032290 451 ids) (fs2 ++ fr2) = true := by krfl
theorem fp2 : ForsPart S256.enc4 hf pkB skB P 11876801714032290 451 ids 2 1 fs2 fr2 := fors_part snd P (by decide) _ _ (by omega) (by omega) _ ids_lt _ _ (by decide) _ _ (by decide +kernel) fc2
def fs3 : List (List Nat) := blks 32 4 13 0xf2c6ca07d2c10922d61249a18aa0416b6b8eb82815da98e193e0109b9db4105789d37ac84b72d721ba3bc27454e63ecc626cc8f98db64391db97e2472e146975fe410359c9162dbddd2a18753df28e70a00b28943e6f943d246e3b69e823315d747d38da4320f870532ad38897ce95eea197fb316316856ebac0710552b76ce42ff389a79bc129abae7ad3257bbd8aad45a0f70ff45d2b85cac37d84e2cc73bf466da82a94926675940e185fa724cdfa47a1dc92a68a121da8a38d12c1c1cc05ea3e5319d4212542d713ffa8ff4a5d36
def fr3 : List (List Nat) := blks 32 4 1 0x92a65612390b75066fb67476d238a3a2
theorem fc3 : eqLL (forsP O 12 3 1 11876801714032290 451 ids) (fs3 ++ fr3) = true := by krfl
theorem fp3 : ForsPart S256.enc4 hf pkB skB P 11876801714032290 451 ids 3 1 fs3 fr3 := fors_part snd P (by decide) _ _ (by omega) (by omega) _ ids_lt _ _ (by decide) _ _ (by decide +kernel) fc3
def fs4 : List (List Nat) := blks 32 4 13 0x34b4d54a70ce8dcd678807ad1f840d11e9f9d156ceffe5b8de6c9d1bb81a1e3f0918eaa6be09194d616af4cfaddb7038184a91ed006aa859bb9de7d9480ac05319ed969c5f4a34d15f1e91adcd6b9d37576bb21ddb435fcf96e4d94036b091ce70e2ed9607ba5a576466685202a187ac6f85ed2331385a35e4e51e139e604c688e1a64c365489d513605269798cd0ffa654336578aaf5549f7b1c4d9a80f4e20aaf55bfbb494e65457371a9a2d3b7827c560dd15d274dcc487e2d44a78baacf7e78281995e89be4be85b264c05ed92b4
def fr4 : List (List Nat) := blks 32 4 1 0xcd13182effe100958e3aaa83f9b5ae17
theorem fc4 : eqLL (forsP O 12 4 1 11876801714032290 451 ids) (fs4 ++ fr4) = true := by krfl
theorem fp4 : ForsPart S256.enc4 hf pkB skB P 11876801714032290 451 ids 4 1 fs4 fr4 := fors_part snd P (by decide) _ _ (by omega) (by omega) _ ids_lt _ _ (by decide) _ _ (by decide +kernel) fc4
def fs5 : List (List Nat) := blks 32 4 13 0x8b6463213f6782e3f5930b200bd770bd0f863366d3cf8b6c9791e6b0c07bb9c2a2b3cdd3bf4c30b1fd710d8bddbb24edf54bfbdb9f118e4defb8b0a480879e7a2479ade09cde10c555c4f54a48017abdc60d1479ae6c5a3c74734f2090ee757d192ad013a956e3fecd20681d686e7644c9316ee8644c5c52100408ab9a1439768a07fbc7f922ac14d449c574ef3805ff9dabae9a4dac6382b77c734c5495502bfbb391d2c87a5883ccf24b5437f78289ca9b89d9bf2a7a74acf9e530c18ce882440349cefae8dae670e0fa55e3e00063
def fr5 : List (List Nat) := blks 32 4 1 0x3ea8fdde40e07a05b849933fb5dffaee
theorem fc5 : eqLL (forsP O 12 5 1 11876801714032290 451 ids) (fs5 ++ fr5) = true := by krfl
theorem fp5 : ForsPart S256.enc4 hf pkB skB P 11876801714032290 451 ids 5 1 fs5 fr5 := fors_part snd P (by decide) _ _ (by omega) (by omega) _ ids_lt _ _ (by decide) _ _ (by decide +kernel) fc5
def fs6 : List (List Nat) := blks 32 4 13 0xb3d72dfa58f2b8661f3d0cda3f2b86b4b32225a715ccb8d83987f7ce406e737b867c7b35c10a5a0425b1d3af1966340464af6dea8f4c41c730e2de46a2735152a3680f2021225c3195e00eafd188f7541b353f852c183fae109210666d70b6197898100e3745abe575571b3703b264f1a89a9343ada1471b8990e56d8f91a70452055f6f42ddbb35c43f3acf204c26d231c253d6a6d271de09566f110d4abe60a274d456ee2bd63fd96a5bb8e756f9d5258324e6c4a90689bc0dec7c79e6b2ef931ee522e36bd92d954ed26322c5f8b2
def fr6 : List (List Nat) := blks 32 4 1 0x2a09728d19cadc95036e5a97a71983b6
theorem fc6 : eqLL (forsP O 12 6 1 11876801714032290 451 ids) (fs6 ++ fr6) = true := by krfl
theorem fp6 : ForsPart S256.enc4 hf pkB skB P 11876801714032290 451 ids 6 1 fs6 fr6 := fors_part snd P (by decide) _ _ (by omega) (by omega) _ ids_lt _ _ (by decide) _ _ (by decide +kernel) fc6
def fs7 : List (List Nat) := blks 32 4 13 0xbcd0923ddcc2fd2a494892de8a2dbfb4a8e3b64165e8d97650925f0a74cc1eba83ed0659ec5c1398961887aac446fd52233574fad311257542205a981b1cc8779240d5c9a5b5bdce5b1840f7d6f317704656b96e3f09c231aeaa339244c3774bca51507df3497b7f5ceaf66097dac27b4d6867bb0ffd512c4a25c598af364c7e99aaa57a7507b1b0dc403fb0062cc9dde74494ede682c8fd6ccca5f0e3a59ea647889624f454ebff681f2cb2cd43f9f0bd32473858bf8747a3554adfac8dc23004d067d70e81e2ef0bfa9dea079e629
def fr7 : List (List Nat) := blks 32 4 1 0x694216488e680c91101b3924f193269f
theorem fc7 : eqLL (forsP O 12 7 1 11876801714032290 451 ids) (fs7 ++ fr7) = true := by krfl
theorem fp7 : ForsPart S256.enc4 hf pkB skB P 11876801714032290 451 ids 7 1 fs7 fr7 := fors_part snd P (by decide) _ _ (by omega) (by omega) _ ids_lt _ _ (by decide) _ _ (by decide +kernel) fc7
def fs8 : List (List Nat) := blks 32 4 13 0x1e482cecf4ff5f366759904da40c6d21a5df7655899aee69479a754264ed4b780ba21495146e7bee5e18b3f7a8625965143af96bfa0b98bf66271e0d1c898878cf1a3f48089562f3bb6d97bfdd25829e682b1c009efa65df419ce3fcfe38ca11c95598c623db8799809d7b15b5264e7294b587459b1e5310eb8eceec69ca3110c7978e2e6dd711c3fca628ba8fe696c2e362458609035585364c7226cdc26968d1f7d524524fb10006cac9f9466121347d7791e8cd1bcc7cb981e2c2fedadf78dce53463b93b8b045380e55c4d129fb5
def fr8 : List (List Nat) := blks 32 4 1 0x5df11368c8f6394c530f594b3650ef1e
theorem fc8 : eqLL (forsP O 12 8 1 11876801714032290 451 ids) (fs8 ++ fr8) = true := by krfl
theorem fp8 : ForsPart S256.enc4 hf pkB skB P 11876801714032290 451 ids 8 1 fs8 fr8 := fors_part snd P (by decide) _ _ (by omega) (by omega) _ ids_lt _ _ (by decide) _ _ (by decide +kernel) fc8
def fs9 : List (List Nat) := blks 32 4 13 0x8890043122606bae126baec7c7bcc203395a949452bdddaad248da92aca64c9634db1294600b71a26417a51346e0402f86866e401c61859865e3dbd0a3c5db0e34ff827c79d0f826e760b20354273c2c6e55ed027b165a6bc76cc67b79e0264314b1d2830ae3f3a892708af621dce50ced6c4cfe98643fab79471d10f1edcc3ce9c98bed68c567def72d6c5ed3153a75d7254c8e159182da8d09e509a05becf048690589ec0a0535f27494cbb548169cf584cab8aece5c8d184a6b02930653918ca11e2833c6e7877c3e03867f06e883
def fr9 : List (List Nat) := blks 32 4 1 0x29090960e4727868063c0218d49522c5
theorem fc9 : eqLL (forsP O 12 9 1 11876801714032290 451 ids) (fs9 ++ fr9) = true := by krfl
theorem fp9 : ForsPart S256.enc4 hf pkB skB P 11876801714032290 451 ids 9 1 fs9 fr9 := fors_part snd P (by decide) _ _ (by omega) (by omega) _ ids_lt _ _ (by decide) _ _ (by decide +kernel) fc9
def fs10 : List (List Nat) := blks 32 4 13 0xa8a71097ebbd2b1979857484d9d66f3d786556ffd41f7d79af1b271dee00c8e145e75e0d9f0ec382fb8eda56c03ed8a28d50e5f2b69765d2afc6b7ecd888953e40101d20f827c217e7a8f1fad47920031a05a00c51aeecfb7c4cf1d9eee91b144455a08b492226c325f70e246e582cc8bc2ad8fd58bcf489df817f20eefef0b53a5c341b79c8720b9b438a9104850d362eea3dcd5d76646f813f4a030bd2e684901632847bcfa222c4e90ba18cea2cd68fb6e170517f1a9bba9cfcc8088aa3fe1f183628e3114fe91b56addb95e5d0ab
def fr10 : List (List Nat) := blks 32 4 1 0x2294cc8f00a72e127018b81ce38d9c7d
theorem fc10 : eqLL (forsP O 12 10 1 11876801714032290 451 ids) (fs10 ++ fr10) = true := by krfl
theorem fp10 : ForsPart S256.enc4 hf pkB skB P 11876801714032290 451 ids 10 1 fs10 fr10 := fors_part snd P (by decide) _ _ (by omega) (by omega) _ ids_lt _ _ (by decide) _ _ (by decide +kernel) fc10
def fs11 : List (List Nat) := blks 32 4 13 0xbb7eb8d654f27cdb3ef4a893ef4e352cf2bb32202b937d99856f5951e644e28a20e85fa1a2c87dc677754e5088bacfd1e3a5d8873c02b8a8f575640b816fbc56f5afeea5bb99291a015cf3d0298c04e411d321b98ace2ef80d568d1cd1102170de65bd65960e01e3ffb73cfb0cd52d8a70f578959b8efc392ba60e3ac0ecb4199f364d113cb752d9426561252e1f27d3b53d7250260d174eedcf95df17600021873b32d437d7488eae10833758e4711802e918c22d78a23d235e12f20416374395f550f23b122abf66c22fafb20bb012
def fr11 : List (List Nat) := blks 32 4 1 0xa3f97f4d98964252e4b2ec94f3787146
theorem fc11 : eqLL (forsP O 12 11 1 11876801714032290 451 ids) (fs11 ++ fr11) = true := by krfl
theorem fp11 : ForsPart S256.enc4 hf pkB skB P 11876801714032290 451 ids 11 1 fs11 fr11 := fors_part snd P (by decide) _ _ (by omega) (by omega) _ ids_lt _ _ (by decide) _ _ (by decide +kernel) fc11
def fs12 : List (List Nat) := blks 32 4 13 0x50195ac3dc4357a7506eba103d6c65306da4a3d480554a8195e86e30414ca3f7370dda5c618538ac4d613f86d710e2bf21229080608d739f5121d374fbba196118d3c51c023f559fb5db1b5b5a58515f4f171a2da692067ad617deeebe5e53cfdade36afb4d1b5231b257d3a1dff4ca184272d73d7a163bb3fd4301f765213a643242466b1bc01a9499e01240398ad8d131d426f539af69578906873de3c362348b61ec3d66624af9d038e340f99b7b4c7c7bc550677e2c05794c7498bb555e711d02346348769b0546deff87b62791f
def fr12 : List (List Nat) := blks 32 4 1 0x977e53dec878d55279c62e1eacc88c1b
theorem fc12 : eqLL (forsP O 12 12 1 11876801714032290 451 ids) (fs12 ++ fr12) = true := by krfl
theorem fp12 : ForsPart S256.enc4 hf pkB skB P 11876801714032290 451 ids 12 1 fs12 fr12 := fors_part snd P (by decide) _ _ (by omega) (by omega) _ ids_lt _ _ (by decide) _ _ (by decide +kernel) fc12
def fs13 : List (List Nat) := blks 32 4 13 0x3675c35a2dab92c1dba154ddecb851fa68d101b5e8d70b3bead89ddaca47c6644ca771f50a51f4ad9a41bd10a4e8ee0b0b0b032d6e64bcac17161c7ed7f24648a921ee0b45314bf4684e2f802e1b51771b904c46800bf64913f6ecc5f170f8c99068ec2adf2ddae1d4721e65e5e6d2c50da032836db54a1f293c9e98f1e4de7363ca3b221b243504445ad788391378f5815aa389fb26c6cf779ad42c0bb598e565746fc1c3c673a77da3658a25688eb7c357028de839815de11768e238c98e8888c339bb9bbcf0c6b0c9fce86172996b
def fr13 : List (List Nat) := blks 32 4 1 0xeb34af62f986d5d0b2a96d0669b50b66
theorem fc13 : eqLL (forsP O 12 13 1 11876801714032290 451 ids) (fs13 ++ fr13) = true := by krfl
theorem fp13 : ForsPart S256.enc4 hf pkB skB P 11876801714032290 451 ids 13 1 fs13 fr13 := fors_part snd P (by decide) _ _ (by omega) (by omega) _ ids_lt _ _ (by decide) _ _ (by decide +kernel) fc13
theorem fa1 : ForsPart S256.enc4 hf pkB skB P 11876801714032290 451 ids 0 2 (fs0 ++ fs1) (fr0 ++ fr1) := fors_app P _ _ _ 0 1 1 _ _ _ _ fp0 fp1
theorem fa2 : ForsPart S256.enc4 hf pkB skB P 11876801714032290 451 ids 0 3 ((fs0 ++ fs1) ++ fs2) ((fr0 ++ fr1) ++ fr2) := fors_app P _ _ _ 0 2 1 _ _ _ _ fa1 fp2
theorem fa3 : ForsPart S256.enc4 hf pkB skB P 11876801714032290 451 ids 0 4 (((fs0 ++ fs1) ++ fs2) ++ fs3) (((fr0 ++ fr1) ++ fr2) ++ fr3) := fors_app P _ _ _ 0 3 1 _ _ _ _ fa2 fp3
theorem fa4 : ForsPart S256.enc4 hf pkB skB P 11876801714032290 451 ids 0 5 ((((fs0 ++ fs1) ++ fs2) ++ fs3) ++ fs4) ((((fr0 ++ fr1) ++ fr2) ++ fr3) ++ fr4) := fors_app P _ _ _ 0 4 1 _ _ _ _ fa3 fp4
theorem fa5 : ForsPart S256.enc4 hf pkB skB P 11876801714032290 451 ids 0 6 (((((fs0 ++ fs1) ++ fs2) ++ fs3) ++ fs4) ++ fs5) (((((fr0 ++ fr1) ++ fr2) ++ fr3) ++ fr4) ++ fr5) := fors_app P _ _ _ 0 5 1 _ _ _ _ fa4 fp5
theorem fa6 : ForsPart S256.enc4 hf pkB skB P 11876801714032290 451 ids 0 7 ((((((fs0 ++ fs1) ++ fs2) ++ fs3) ++ fs4) ++ fs5) ++ fs6) ((((((fr0 ++ fr1) ++ fr2) ++ fr3) ++ fr4) ++ fr5) ++ fr6) := fors_app P _ _ _ 0 6 1 _ _ _ _ fa5 fp6
theorem fa7 : ForsPart S256.enc4 hf pkB skB P 11876801714032290 451 ids 0 8 (((((((fs0 ++ fs1) ++ fs2) ++ fs3) ++ fs4) ++ fs5) ++ fs6) ++ fs7) (((((((fr0 ++ fr1) ++ fr2) ++ fr3) ++ fr4) ++ fr5) ++ fr6) ++ fr7) := fors_app P _ _ _ 0 7 1 _ _ _ _ fa6 fp7
theorem fa8 : ForsPart S256.enc4 hf pkB skB P 11876801714032290 451 ids 0 9 ((((((((fs0 ++ fs1) ++ fs2) ++ fs3) ++ fs4) ++ fs5) ++ fs6) ++ fs7) ++ fs8) ((((((((fr0 ++ fr1) ++ fr2) ++ fr3) ++ fr4) ++ fr5) ++ fr6) ++ fr7) ++ fr8) := fors_app P _ _ _ 0 8 1 _ _ _ _ fa7 fp8
theorem fa9 : ForsPart S256.enc4 hf pkB skB P 11876801714032290 451 ids 0 10 (((((((((fs0 ++ fs1) ++ fs2) ++ fs3) ++ fs4) ++ fs5) ++ fs6) ++ fs7) ++ fs8) ++ fs9) (((((((((fr0 ++ fr1) ++ fr2) ++ fr3) ++ fr4) ++ fr5) ++ fr6) ++ fr7) ++ fr8) ++ fr9) := fors_app P _ _ _ 0 9 1 _ _ _ _ fa8 fp9
theorem fa10 : ForsPart S256.enc4 hf pkB skB P 11876801714032290 451 ids 0 11 ((((((((((fs0 ++ fs1) ++ fs2) ++ fs3) ++ fs4) ++ fs5) ++ fs6) ++ fs7) ++ fs8) ++ fs9) ++ fs10) ((((((((((fr0 ++ fr1) ++ fr2) ++ fr3) ++ fr4) ++ fr5) ++ fr6) ++ fr7) ++ fr8) ++ fr9) ++ fr10) := fors_app P _ _ _ 0 10 1 _ _ _ _ fa9 fp10
theorem fa11 : ForsPart S256.enc4 hf pkB skB P 11876801714032290 451 ids 0 12 (((((((((((fs0 ++ fs1) ++ fs2) ++ fs3) ++ fs4) ++ fs5) ++ fs6) ++ fs7) ++ fs8) ++ fs9) ++ fs10) ++ fs11) (((((((((((fr0 ++ fr1) ++ fr2) ++ fr3) ++ fr4) ++ fr5) ++ fr6) ++ fr7) ++ fr8) ++ fr9) ++ fr10) ++ fr11) := fors_app P _ _ _ 0 11 1 _ _ _ _ fa10 fp11
theorem fa12 : ForsPart S256.enc4 hf pkB skB P 11876801714032290 451 ids 0 13 ((((((((((((fs0 ++ fs1) ++ fs2) ++ fs3) ++ fs4) ++ fs5) ++ fs6) ++ fs7) ++ fs8) ++ fs9) ++ fs10) ++ fs11) ++ fs12) ((((((((((((fr0 ++ fr1) ++ fr2) ++ fr3) ++ fr4) ++ fr5) ++ fr6) ++ fr7) ++ fr8) ++ fr9) ++ fr10) ++ fr11) ++ fr12) := fors_app P _ _ _ 0 12 1 _ _ _ _ fa11 fp12
theorem fa13 : ForsPart S256.enc4 hf pkB skB P 11876801714032290 451 ids 0 14 (((((((((((((fs0 ++ fs1) ++ fs2) ++ fs3) ++ fs4) ++ fs5) ++ fs6) ++ fs7) ++ fs8) ++ fs9) ++ fs10) ++ fs11) ++ fs12) ++ fs13) (((((((((((((fr0 ++ fr1) ++ fr2) ++ fr3) ++ fr4) ++ fr5) ++ fr6) ++ fr7) ++ fr8) ++ fr9) ++ fr10) ++ fr11) ++ fr12) ++ fr13) := fors_app P _ _ _ 0 13 1 _ _ _ _ fa12 fp13
def m0 : List Nat := [0xa89af050, 0x71d4dc25, 0x9d7b263e, 0x3b55a00e]
theorem fk : forsPk P hf skB pkB 11876801714032290 451 = S256.enc4 m0 := fors_pk snd P (by decide) _ _ (by omega) (by omega) ids _ _ fa13 (by decide +kernel) (by decide +kernel) _ (by decide +kernel)

/-! ## Hypertree -/


end Kat.Sha2_128s
