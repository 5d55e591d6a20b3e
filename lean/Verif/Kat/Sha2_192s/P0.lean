import Verif.Kat.Nums
import Verif.Proof.KRfl
import Verif.Kat.Ops512
import Verif.Kat.Hash512
import Verif.Kat.Sha2_128s.P4
/-!
# Known answer for sha2_192s: parts of the signature, checked by the kernel

Written by tools/katgen.py from testvector.h.
-/
set_option Elab.async false
noncomputable section
namespace Kat.Sha2_192s
open Spec Spec.Slh Model

abbrev P : Params := PsName.sha2_192s.P
abbrev hf : HashFns := PsName.sha2_192s.fns
def sk : List Nat := [0x10203, 0x4050607, 0x8090a0b, 0xc0d0e0f, 0x10111213, 0x14151617]
def prf : List Nat := [0x18191a1b, 0x1c1d1e1f, 0x20212223, 0x24252627, 0x28292a2b, 0x2c2d2e2f]
def pk : List Nat := [0x30313233, 0x34353637, 0x38393a3b, 0x3c3d3e3f, 0x40414243, 0x44454647]
def root : List Nat := [0xb6f282ce, 0x116ff59b, 0xce2d9fc4, 0xa67c6031, 0xdabdce32, 0x6c34f541]
abbrev skB : Bytes := S256.enc4 sk
abbrev pkB : Bytes := S256.enc4 pk
def O : Ops := S512.ops ⟨0xaa493221, 0x34f2a788, 0xcb16e6df, 0x432d1b04, 0x39cf293f, 0xbf75744f, 0x5c190792, 0x19286d4f⟩ ⟨0x6ffe17cbff73d3bf, 0x6467332d6c0fb3c4, 0xaed4fde5c4d10b68, 0x47d80f0427aa1f59, 0x2684d4222258f9ec, 0xa5a9888ed7693987, 0x549ee32791b3b806, 0x7290c510bfc3f962⟩ 3 [0x10203, 0x4050607, 0x8090a0b, 0xc0d0e0f, 0x10111213, 0x14151617]
theorem snd : Sound O S256.enc4 hf pkB skB := S512.sound 24 3 rfl (by omega) _ rfl ⟨0xaa493221, 0x34f2a788, 0xcb16e6df, 0x432d1b04, 0x39cf293f, 0xbf75744f, 0x5c190792, 0x19286d4f⟩ (by decide +kernel) ⟨0x6ffe17cbff73d3bf, 0x6467332d6c0fb3c4, 0xaed4fde5c4d10b68, 0x47d80f0427aa1f59, 0x2684d4222258f9ec, 0xa5a9888ed7693987, 0x549ee32791b3b806, 0x7290c510bfc3f962⟩ (by decide +kernel) _ rfl (by decide)

/-! ## FORS -/

def ids : List Nat := [0x48e, 0x2adb, 799, 0x33e4, 0x1d01, 0x1fbd, 0x38f1, 0x2b28, 0xadb, 0x387c, 0xdc1, 610, 0x3ed9, 0x1ab3, 0x30ce, 0x2f95, 0x21bb]
theorem ids_lt (i : Nat) : ids.getD i 0 < 2 ^ P.a := by
  rw [List.getD_eq_getElem?_getD]
  by_cases h : i < ids.length
  · rw [List.getElem?_eq_getElem h, Option.getD_some]
    exact of_decide_eq_true (List.all_eq_true.1 (show ids.all (fun x => decide (x < 2 ^ P.a)) = true by decide) _ (List.getElem_mem h))
  · rw [List.getElem?_eq_none (by omega)]; decide
def fs0 : List (List Nat) := blks 32 6 15 0x756238c81dd6e45c6d5c6ce3330a8274b85644e088e061efd99c38d0a2734a9ffadef639f9f3dcd8febe2c188a42c552081c8427d4ce3bfddc98cae683fe57b38ac39307f9e0be051980a77a851a75243417212efedb5c11e4ea617c93fa6530df0986a17fbd7a176f558268f27b5383fe3e7d06a68562eadea5c5cb6bc45f256957123360a208b30a4d76d86bd434ed35fce098a5df60389f0ee6eb2ef55a97dae30f62a1a1521b14e789faa2a9a8f5ad19e3d6758911d628c4d7e7a671a789dfeeecd8b9860154169099aa0f6c86dbc6a86ec0c6555ac382d6ac05fb7b1e7f363cea0e6b9c7a0543e50dd3caa190ee2b8b9bd7dd414ba8b1f2fa2c722be9a644dc415dcba5427db8e02c144575872cadfdc336c52a03a793da1c0326fe62236d6939884e697a894846970c03f87611d4dae16dc32a4b12b7d64e692193cbfb0b273373e30358eb597f6cf72bcf0c6efce5f8252d148af741d2a964a2b9afdbff29a9fa94dfb495
def fr0 : List (List Nat) := blks 32 6 1 0x550434cf88ed850c46d21beb44b9fff542c83ec06b3712b
theorem fc0 : eqLL (forsP O 14 0 1 11559633998364827 103 ids) (fs0 ++ fr0) = true := by krfl
theorem fp0 : ForsPart S256.enc4 hf pkB skB P 11559633998364827 103 ids 0 1 fs0 fr0 := fors_part snd P (by decide) _ _ (by omega) (by omega) _ ids_lt _ _ (by decide) _ _ (by decide +kernel) fc0
def fs1 : List (List Nat) := blks 32 6 15 0x9d9a9152593647453a5c131bb85a8228d89b81fa815f8dd50b06b3e29366410e772ff1353cfb264873958eb10b055ed8cc04eb3aad6ed4c795f41e0570f25fb0b50f54b35f38578b98c8a6bf8a74245ada6721a93cd54e68e5e4a70904934096c09854f25112b9257784e484eaf3f55536533347fa3708257019ab71d1ace3b6106c28922de7b6c35149a2967ff7196a59ee7378342484cad0635defd8fcc0e1cd48fb603b4434edd04b8a69a54ede3d2b8569580a0b489756e35ec339fe02165c0b74e79aa1ab048957e7df5cd7d692c2efdbbfb94dc12d72385bb3c2026a7610de546a8a5c8b3ab8c6d803ad519e2904b79edb649c892e25969f801f6457e16bfb6e7eec5148bdecf06946e8b99b8504e119ed06d91f2a4a41350267c4ab544abb19fe45b7d56736d9684aa5930b902e7ec9cadb411cb25bc9557caa65e0c777750a663cb5f8b4ea9a92361d7e44f6bcd2ea2a898540c855a4c8f75aaee60a3ce9133b19c57493
def fr1 : List (List Nat) := blks 32 6 1 0xa3d568429527571ba6b4c2d82dc50829ae2499197b0b1fe0
theorem fc1 : eqLL (forsP O 14 1 1 11559633998364827 103 ids) (fs1 ++ fr1) = true := by krfl
theorem fp1 : ForsPart S256.enc4 hf pkB skB P 11559633998364827 103 ids 1 1 fs1 fr1 := fors_part snd P (by decide) _ _ (by omega) (by omega) _ ids_lt _ _ (by decide) _ _ (by decide +kernel) fc1
def fs2 : List (List Nat) := blks 32 6 15 0x92940a72468ab9c34c0c288e8658d2cf78ef5dde0316d3fc9a4b91ac23c70853671ad51956c40f0c133e18278844fdaa09eb240a4c17df0d3da05db7662f7bd2595eb0971f7cbf221f0d2be42b03cac3dc43f08e3291daf6750387b1aa06ff3ebc13f2e7102542375b053c60bff13f5a82351937f1efbd68b5721f5274a80f6d86970521c60a471378644570885adf57752671f0d302ab8a4eab7bd548f887daf9de6e4563b99fa8a8110c993a9da997bcc6cd9481b7e461914c66fcd3ca69f2e6e4d54e617f839c619ed8cf5cf9f6cf747aee6c94677ce3eba05ccbdd8b2392cbb27caf64e9de336e3502b474f20d87007e90e86ae22adb7292c9602033f677a8674c268a533182cdf3b1a3d1f2bf4d176ccbc0ebb832b928023f8091b95884be4189d6b41d0c8899890c22ccc4b27dd6778c6d80091b19f5d3d28685f754e66ecf1ebb7de31492f66bf9a265eadebfb6c307009d9183ad25e351e9d892cb418e473e5c30af5943
def fr2 : List (List Nat) := blks 32 6 1 0x879bcc2a6a185c255e2b1e3a83eda2a967fb8f5f106552e
theorem fc2 : eqLL (forsP O 14 2 1 11559633998364827 103 ids) (fs2 ++ fr2) = true := by krfl
theorem fp2 : ForsPart S256.enc4 hf pkB skB P 11559633998364827 103 ids 2 1 fs2 fr2 := fors_part snd P (by decide) _ _ (by omega) (by omega) _ ids_lt _ _ (by decide) _ _ (by decide +kernel) fc2
def fs3 : List (List Nat) := blks 32 6 15 0xcfb44e6c3caaad2208c11d33b109d16255108eb52115d71a20c3c302e691a277dc0aade1026b13eaa5aa30b1ace47156680a94bb9ac63de74f2fc674a71ac4912325dff5a7b7eb850415b1dfda1430f5959ae608e9b3a2a906302662bd8fe4f4bbfacffcebbc93e72a2302c3fecdb395f3528bb3ec2336638dc91837ae1492e0c2e3032760e0dd7a869c37870a7e105e47c4b6f2e54d0f30313b62e8e5c5aeb1b7b4fb50d99865a43d34178e9952b1335d61408f92f9adf10f92a57f86d7783373868329ef55a32ac598cb34a71d2e4d8eb18906c867e0746708a06feda32c540adc21aac1b61855171e63cd580bda0e1e2046b0e1778e5c8a660465d80c5c9ff9188b3b7dd918adcb0a3c32222c89ea6f349f6e17cade830e262a993678ab767a18d580653d0b730569cc106e924385c89c79ad64ab0031d1af49a0a74b567f025c891fd2797ac607ffbd3b08a79bbcff61cf4e74cc5b96062fdb810e8473da88d9649b3f831ed2
def fr3 : List (List Nat) := blks 32 6 1 0x28002e8729e2683b5cfc1676526ea61158811fed502a6ae8
theorem fc3 : eqLL (forsP O 14 3 1 11559633998364827 103 ids) (fs3 ++ fr3) = true := by krfl
theorem fp3 : ForsPart S256.enc4 hf pkB skB P 11559633998364827 103 ids 3 1 fs3 fr3 := fors_part snd P (by decide) _ _ (by omega) (by omega) _ ids_lt _ _ (by decide) _ _ (by decide +kernel) fc3
def fs4 : List (List Nat) := blks 32 6 15 0x67465ccdebebb2b96089c30a0bc64ab6606c9f343438e59f4fe421cdcc274de9a4f236cccbffb4fe22c8f31c5df0abf341c9cd81d2876c40a8ded85234e91f41f3b68cd3635312602a72ae7859bcb63b2f0b168993e60c616aa0a9812ec78a8890faf8ed367feb296efcd9cf5abc9c0a3cc7fe11bb7377403665b92b0f7aff286c2241a7eda1fcc76325a8fa4c13391b798a306f9c4799d399c9a2cab99a334f79c8cfac4ac166bc531a8b77c1afed9f33e4785f205bdee8f19daa68146f01085bdf00ee52c66fed7989afff75774c5cbb51707d0b1eb46b7bf652683c44d060a0d45eb7e486164e21d158bae9635a80937723f60f76036e789d5792caf8105f905079a65a4f669cc744f4df2c71cf29a8a9eac66192a521bade7ffcae538ebab4510487989b6b68d8bb6345b69e1f246350b3828ae280cffb82d6da6b9a2a87698bb8647c05e96e1a760817665347f0868b1e8329f9109eae71975ae010bffce6b2e46428a5c14f
def fr4 : List (List Nat) := blks 32 6 1 0x3754cdb36b10bfe99ec4017b421c88084403df6d153813a0
theorem fc4 : eqLL (forsP O 14 4 1 11559633998364827 103 ids) (fs4 ++ fr4) = true := by krfl
theorem fp4 : ForsPart S256.enc4 hf pkB skB P 11559633998364827 103 ids 4 1 fs4 fr4 := fors_part snd P (by decide) _ _ (by omega) (by omega) _ ids_lt _ _ (by decide) _ _ (by decide +kernel) fc4
def fs5 : List (List Nat) := blks 32 6 15 0xb903f317d0013e8956f91855eb205b7419de78bc61ce3a57de361e88c4692dbec60567c875412b9246bd71afd2140d1ff8fbc7714fcc54db9e81141f9dd825f01a32b25861f6972583fcb2a1e6d0eb2a1e9e66ee0fa674f32a7cc2ee0e1d7077a64889a6fc817cec32f4907f3d9eaa7333abda9743132d67aa9022f5276f1fa0306037453bacc5d190bd024e87079a60140f1d0aba111d19416b073d72eff6659602ec4bd9e896f9cf709a567c1cfec90fdbe2b8f935064dea03d45a469139ba1b0053139b39bd597cf93ac389fcc73f22128003e57f6c6c84ade6444ad4e07753d08371f415398da79e5221e0d746c28abf9f2244d6ebff73e212ce86098947d2ea72b73a4dc663f6b72406772aa7efb5d8d6bfd6ac63cfa3dbff83803b5324ca7a41e3c2457c251b8f698f2cf198527275957e7ce95e58e06a62ef75f59ab2de592ed9e5eba3136781eefe1acfe434ffb975c6a45cb736a5359da1397a9c9b9f74df152b4dd1e8
def fr5 : List (List Nat) := blks 32 6 1 0x3b934f4a3df75b125ff2ae5819680d69b0cfa2b9c297d42a
theorem fc5 : eqLL (forsP O 14 5 1 11559633998364827 103 ids) (fs5 ++ fr5) = true := by krfl
theorem fp5 : ForsPart S256.enc4 hf pkB skB P 11559633998364827 103 ids 5 1 fs5 fr5 := fors_part snd P (by decide) _ _ (by omega) (by omega) _ ids_lt _ _ (by decide) _ _ (by decide +kernel) fc5
def fs6 : List (List Nat) := blks 32 6 15 0x32c5dce54c797ff67ed6f16eb5a6188ac001e62175dbe23685998e60601477b6f7e8418a327cc8d3a2816d28eb3ff37bdd1d60787fe57c359996cf3b3770c190b9ccc7b78b4c1a5acaf8ba99c068d3bfbaa8b6838c5f7ef617477a3d68d7de38ed1fe15ac48b4e1a1220dcd4ca03539d83adf5ac16ee9b5dfaedc616a9ada0380084e3d6b7ace9cbbdf6aece896f516ee60f62653b0aaea58406d9d85d59e036cd70fc18a21c61553919d565004ce6365c560452ccb7317ed4783fb93a927e8d6687dccccd53de29735f041caa36dbfd824683b12024bca7736fe4a9d9ae12da525bd4254482a2e6c6a7ed4b6b3550e1e028fcebc0677ca0914aad1e60497988890a6c278de8e450fab1d7f81d699612ae38fdbfd342a39bdaea16a7e316fc61f9bc1e713be472617e48f676198590781e3ef5712fa63e95ae33793a6e6ebe4a04dde12619f0ff7d74efe5101cbd403bed1775422311f55dbaf27930c7d8a45f2641975bba2240c7
def fr6 : List (List Nat) := blks 32 6 1 0xb4976e401714becc181f125ce27a9cf84330329d49df952c
theorem fc6 : eqLL (forsP O 14 6 1 11559633998364827 103 ids) (fs6 ++ fr6) = true := by krfl
theorem fp6 : ForsPart S256.enc4 hf pkB skB P 11559633998364827 103 ids 6 1 fs6 fr6 := fors_part snd P (by decide) _ _ (by omega) (by omega) _ ids_lt _ _ (by decide) _ _ (by decide +kernel) fc6
def fs7 : List (List Nat) := blks 32 6 15 0xa19cd96a3781fdec1b727d7edc724aaa8a44f68551e506a8c6a7a89c937126469329ae2d5471c1a41b44aa9a842380e53c8b790df02a5167d45d66d5a39f04a16371cda4b1284a553bab7214c4305e3918eabc701dd090902593549adc641957ea73d13f7d0cc2893f2b701310b49c8f5290ff2374582ae64d0fb8b28d59ddf4fde26e32db438b89f3db92a5a03f572847b1c986782e4387ec556d1bdee04e4b48eefb4fb8949d8140d840f86b14b98ab02819d571f67edcc851c455c88f4285640acb93d91b595a1dd9de26f3004f1644ef26c95e1353a5abc5e1e0e9191a43fa2f75740f5c0971e992aa2d83042b4f00b344425a2830fec2b45844419ef5edc2ec1265d7943c1c6e64b64682d07273df87cb335d8379ec5ea9415a7a8bde586ba28965d9aa18cf51b61d8bf0119b29a12eef8ffa8c64b55e991b17672be20ddd9f708eaaeff9f9931eb5b13deb55117327567f3fdf63d9f144f92277aff3c3b437ae762ae21015
def fr7 : List (List Nat) := blks 32 6 1 0xb658f14c1bd7774a1398b90d0f3733bb6d1b6528232f9234
theorem fc7 : eqLL (forsP O 14 7 1 11559633998364827 103 ids) (fs7 ++ fr7) = true := by krfl
theorem fp7 : ForsPart S256.enc4 hf pkB skB P 11559633998364827 103 ids 7 1 fs7 fr7 := fors_part snd P (by decide) _ _ (by omega) (by omega) _ ids_lt _ _ (by decide) _ _ (by decide +kernel) fc7
def fs8 : List (List Nat) := blks 32 6 15 0x239547b0f499792b7f88115a53e2114dcb0e4138251396e02b44756ed44052544b969c3cf9c259e494b8bfd90205d53e027c0a9b5e3086b43208f32c4aa0251cc8bb4efdbdd7d91c30992ec745ce53e556686cec21a8ed533895bb233be68d50f6be6d93bca06f534a9edeb69058ce3634489be9dfbcba2e5be6a41bed549933befac85e171bd53fc9164ba1536691c1a4bb03e8c9a83a7ae558a309b8eca9c4069298ef6fef516953e5b9bb1d81c24545f9307dd8d2a0bdd549ba8c54d6a274da0eadbfc42cab876fd699ea28615b1fbc12fb4daa993b7906204ee581cd33795d05587c655c0d04b65d912dbe92b56ce3b2494a89f6205f3b09dbe39d20f77d963994db2241224e12334a23e40d78aa4b9b4372942f1a11627c991c8c80e8a1b93dc56d8c69c05b31577bc4833e67c7a32971be49bba47a808a1187c24b35643a947a5be74f9c473b0a3dbd5e9ebfed03e5299ce8be0999f8f19ee5adfc9ad21b08d6d1c76c011e
def fr8 : List (List Nat) := blks 32 6 1 0x3821511e97f6bea6678af18b1d88f855af5f67938bc4d9f0
theorem fc8 : eqLL (forsP O 14 8 1 11559633998364827 103 ids) (fs8 ++ fr8) = true := by krfl
theorem fp8 : ForsPart S256.enc4 hf pkB skB P 11559633998364827 103 ids 8 1 fs8 fr8 := fors_part snd P (by decide) _ _ (by omega) (by omega) _ ids_lt _ _ (by decide) _ _ (by decide +kernel) fc8

end Kat.Sha2_192s
