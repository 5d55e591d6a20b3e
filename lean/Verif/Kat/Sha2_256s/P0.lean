import Verif.Kat.Nums
import Verif.Proof.KRfl
import Verif.Kat.Ops512
import Verif.Kat.Hash512
import Verif.Kat.Sha2_192s.P5
/-!
# Known answer for sha2_256s: parts of the signature, checked by the kernel

Written by tools/katgen.py from testvector.h.
-/
set_option Elab.async false
noncomputable section
namespace Kat.Sha2_256s
open Spec Spec.Slh Model

abbrev P : Params := PsName.sha2_256s.P
abbrev hf : HashFns := PsName.sha2_256s.fns
def sk : List Nat := [0x10203, 0x4050607, 0x8090a0b, 0xc0d0e0f, 0x10111213, 0x14151617, 0x18191a1b, 0x1c1d1e1f]
def prf : List Nat := [0x20212223, 0x24252627, 0x28292a2b, 0x2c2d2e2f, 0x30313233, 0x34353637, 0x38393a3b, 0x3c3d3e3f]
def pk : List Nat := [0x40414243, 0x44454647, 0x48494a4b, 0x4c4d4e4f, 0x50515253, 0x54555657, 0x58595a5b, 0x5c5d5e5f]
def root : List Nat := [0xda7163e6, 0x1352515, 0xbc0f06f9, 0xf4f44be7, 0x1a5a65ee, 0x9dca5575, 0xcf4a7b6d, 0x4a87d6e2]
abbrev skB : Bytes := S256.enc4 sk
abbrev pkB : Bytes := S256.enc4 pk
def O : Ops := S512.ops ⟨0xecacd38b, 0x5519fdf2, 0x8317f868, 0xd890d96a, 0x21400d9e, 0x42428e63, 0x930386a5, 0xf7854fd4⟩ ⟨0xa9b8fb28cd3f6f7, 0x65a208a2e5536b21, 0x99da06b04860efb6, 0xf11137f31e1be7fa, 0x248d5e7f3905bd4d, 0xc8995a0d0db9df8e, 0x7f0eb9b93ccda6a4, 0x5e00ca804e8d56ef⟩ 4 [0x10203, 0x4050607, 0x8090a0b, 0xc0d0e0f, 0x10111213, 0x14151617, 0x18191a1b, 0x1c1d1e1f]
theorem snd : Sound O S256.enc4 hf pkB skB := S512.sound 32 4 rfl (by omega) _ rfl ⟨0xecacd38b, 0x5519fdf2, 0x8317f868, 0xd890d96a, 0x21400d9e, 0x42428e63, 0x930386a5, 0xf7854fd4⟩ (by decide +kernel) ⟨0xa9b8fb28cd3f6f7, 0x65a208a2e5536b21, 0x99da06b04860efb6, 0xf11137f31e1be7fa, 0x248d5e7f3905bd4d, 0xc8995a0d0db9df8e, 0x7f0eb9b93ccda6a4, 0x5e00ca804e8d56ef⟩ (by decide +kernel) _ rfl (by decide)

/-! ## FORS -/

def ids : List Nat := [0xbf7, 0x29ab, 0x2863, 0x37e0, 0x35e8, 0x2cd6, 0x15b0, 0x3dd1, 0x102e, 0x4f2, 0x3400, 66, 0x7e8, 0x13ce, 0x3e79, 666, 0x1d7a, 0x1306, 0xe8c, 0x5ce, 0x1850, 0x27f8]
theorem ids_lt (i : Nat) : ids.getD i 0 < 2 ^ P.a := by
  rw [List.getD_eq_getElem?_getD]
  by_cases h : i < ids.length
  · rw [List.getElem?_eq_getElem h, Option.getD_some]
    exact of_decide_eq_true (List.all_eq_true.1 (show ids.all (fun x => decide (x < 2 ^ P.a)) = true by decide) _ (List.getElem_mem h))
  · rw [List.getElem?_eq_none (by omega)]; decide
def fs0 : List (List Nat) := blks 32 8 15 0xd81f60b7fe20bad6d4bfc22d725b332428a575577b2c908b5af155ab268d74adaf97eb01fba9cb87b88eadb47a746d8c91f0995efcaaf4e7d43e9d4c8dad76b1ea009685d128e863ad8e00043969631f83f44cf1b9655a47c0657afca7010dc9902c9cb081a01770a0425035b5de30d94fa8f4258686237b780ee0b8f6af61f67e5b9b0898f813fc1ea6efe8fce912030608b0c4d2efa98abb0faef45d97993dd391dbdb2bfae5b79e84722329c3862b540b34f26d313213617cb8a38ae1c1e38d36e94c9a879a46a914bde30b62707923b1c35d871ef5c10f69d79c25b8c22b5e32f38121b72fc74216b4ad8ae9f370cdf7b9883c7fd56b8fe875f6209fb77757297fa81f31bf76156ecfc8999cd661ed60109cb7977502a2e4610d169c3f12ad59b087f2938eb761f9967b72a90e51d3ebea8121c2b1ea7a1b1c6dfd4e12e8a66bdd4a1d7e13bfcf45f56272e1bf3d6874f7d3eee120a8ab9473d4928562add82434bb44247744b111436c3c97c6004d752534630ab9aeac2bc0d7b8fc87818fd0481b3b4118b5a8e0478111617d7d17024ae73f03e537659e01b1a5b0b38b36ca138e8d392741a4b1f8c85cdc9bf9d526bf8568e16a198d201682d9b6476584143d0bd7b094ca82a688e1676d96cc1a2e5347ebc07e53bc3397a6cab42c4e
def fr0 : List (List Nat) := blks 32 8 1 0x1f0b5855b9c48c0eba448379a16d1a327ca68d46a3f618a7269644800d34455d
theorem fc0 : eqLL (forsP O 14 0 1 2946766748834847 245 ids) (fs0 ++ fr0) = true := by krfl
theorem fp0 : ForsPart S256.enc4 hf pkB skB P 2946766748834847 245 ids 0 1 fs0 fr0 := fors_part snd P (by decide) _ _ (by omega) (by omega) _ ids_lt _ _ (by decide) _ _ (by decide +kernel) fc0
def fs1 : List (List Nat) := blks 32 8 15 0x47d11b272b48394959b009070f1561a8de1c4412c4061a40d6e9fd20fdcd04ddc85e8ef6520975fdd2ce9ce1f347fa90732f8b63399064b888b7450a82a40de46cd22aeb0953938500a3e0a89378fb7bbcca7aac294d388b80cfeedb364e1ab7f9bf44cf34b7c8003ff61acdd66fb2d70d3c647725b62488a4b11ac52049e79a7207ca31472ed1cc5e25d874df68535273afd249b1a7211feb17e868d90413b2ecce9c33d8a8b5a4a1b0bebc293bca6c93da5659aec38977cb6e2655be44ed94b72d58c51e3d57be525252ae55a49c67261fa1d0f6c1316cacd49703f94bed2a7a039718a0410121bef2d7a8abed2e0fcae6988fd24148423079397e818e8f46a3e78f1c054f4427f5182b52f049838b7997c70898c154e0a8bfc4fb9b67b67605b4aad11df4dc13b04f5c95c1a4aacd36f08a08bc01fb17b0c4c6466e495fb14aed3792c4dba68d6f9a44cb8d1556763e19936b0d16bd19f5e60247cd29e9433de5cbfe01d1f9d2849ddd2b8f41a133f8e714fe2585d71072c91f9f1f9cbe6835e2b1d99c366424a0ec5072b337ff77c25a75782e6939da1bb4f497a0cb5f4e14819a2251401951f1dc6728d9092946ad25efbaf69358a6eb2360a073b22d61913c4208864dbcc5497ea7e9b05636c7a44ac07a07f24c655f211e12042586af
def fr1 : List (List Nat) := blks 32 8 1 0x1f994c0911a165657e318f9e0c285cfb431aa7880fc142f3df4b728c54ad7e04
theorem fc1 : eqLL (forsP O 14 1 1 2946766748834847 245 ids) (fs1 ++ fr1) = true := by krfl
theorem fp1 : ForsPart S256.enc4 hf pkB skB P 2946766748834847 245 ids 1 1 fs1 fr1 := fors_part snd P (by decide) _ _ (by omega) (by omega) _ ids_lt _ _ (by decide) _ _ (by decide +kernel) fc1
def fs2 : List (List Nat) := blks 32 8 15 0x78e2e4908fa7110ef3e93023647cf5095ead96effd9d050d0abc192d504045aa87f8a1e76bed6798d137a78a0a3ec6b6eafdd2474aab5c73813f885c7372b8a65a427ae364763256fd2d7f0f9ae23e062ef87ea90268a7ddb62d800772b7b0c4cc687ca4fe0c322b2b4e3e4f0ae15775da812cf5139297d7f11cdfaa2a1465a5620cb15db45c194be94315aa3367f6cbdfc048170e312e9dd53a76fba9c4135c51fb01effa31fbecca36f80ffa601c7d4fd8e6e407093fd712fc94ef867ddebf4c15e7cd943a70f51ff88ddcdb4c4baed5ae960dd47e6193e238bc32f9f9f8a51968aed61d5fab258c56894d7fade8c248766d8e0761f396ebb586a1d56814237a9ff3cf8329ea2927189d94d77485af9a6755047dd216861c7267d9ab806910032c1deadc62c9f32e246c1fc199de0506313bed6f244dc6f2c754207e43e65479867c95787666109e80beacaffc372db4ca437d38be422011aee86a3257d34888536b57ec763a04d3759c91c609c1621c85ac6e33887995f2b57c50e91cca568cd11ae5de31124cc65d6f9cdc9b39faa6c75add80d5f0064d30fbc4dabd51f0e153989106d620c10de1aca0bd277bfab70da2d7c5fd107097952c8aa151235896cb19b8f3d2a50068477a9415837c5a75b0ca1f34ed1cc33094ba6937eadc2f
def fr2 : List (List Nat) := blks 32 8 1 0xd0e49ae857210f8ef32b0133441e8ac5b59eb5b17bf4056989e96fd0ce57d982
theorem fc2 : eqLL (forsP O 14 2 1 2946766748834847 245 ids) (fs2 ++ fr2) = true := by krfl
theorem fp2 : ForsPart S256.enc4 hf pkB skB P 2946766748834847 245 ids 2 1 fs2 fr2 := fors_part snd P (by decide) _ _ (by omega) (by omega) _ ids_lt _ _ (by decide) _ _ (by decide +kernel) fc2
def fs3 : List (List Nat) := blks 32 8 15 0x312a71abef5e320859c4a958637d60961d16a1f88954fba150651b3dea4cdb3c65783abaa7c38e375b249b9810cf5d40ecc585402775b0100e67c359e80010c6235cba805c284d6941d989febed5d7198a1b25c107fa74b913bf279f52a937b9555c68640997b08b4ff8f8b06ce26712f39f6c4342443830c6ee68bc3de163340d9a9911ec32363e4b8f9ce5e7edd4504e3c574fb2c6617309b09a940a41d018a204e6e3f3ec5104c99ffb2084ee66818bec381bf374a3a1311b14b0d7d8a302639a08a7f6f40bc3af70f262ab9d08108699078aad9bdb1c61695968cec1720e341a191f8e5e339c199cbf5332e54150c36f2d5c0f158f476a35aea4cf816f3d547cbe256969663259b98593504b86a45f092dc14760444c930d3be80b96e8d7d6012d913479a6fc7995bd14e3c96304d9600f751ca2d96ac03c757b573d4d84cf0b739681e528fdb4b4f9caafddd91f511695207257422466b5c8bc522eac8b1f141488db41cf86cedd8b18292143da830fc000787b24cb7a0590a7d7dd6f0e0c1c868d57acc2ac8dd5377b2699956de6db0a964622c3c7f7856e23062bf44bcbca6799902d3563fb64543ad7bb6282778b71f19505e62a8ff4b3eaf23facc9c5ef43822a8ed5f35f76884f02a9a682bad1cb63a164f9775e8d9d6d924ec206
def fr3 : List (List Nat) := blks 32 8 1 0x87ae8aefd72c3c13edb59df0960f1ff64f18b088ec1f206b11f0961802ecf9b5
theorem fc3 : eqLL (forsP O 14 3 1 2946766748834847 245 ids) (fs3 ++ fr3) = true := by krfl
theorem fp3 : ForsPart S256.enc4 hf pkB skB P 2946766748834847 245 ids 3 1 fs3 fr3 := fors_part snd P (by decide) _ _ (by omega) (by omega) _ ids_lt _ _ (by decide) _ _ (by decide +kernel) fc3
def fs4 : List (List Nat) := blks 32 8 15 0x1d2e2185d59c6c0fe80031c3b6636c1637515143954a1e1a23b2f0b2c5bd0ffe66bdf587267407e073c58bb2d9b85176df0216f7878f30f01b5315333d5c126543969be47c51d52177ebb126daa4ca1dde478212fc61d3ed25fb48a68be0e7d600ec64d21619484ba656919133d597924b7b719e26341f5d39ec924c5772e6728b174012dfbe74d867888d1c3288888c7e368cbe02af022ef755846a7dbb4ac681ac7a052ab4497aa21a958e80f8067850e51a4d4cf49ad6efb36e77d4c9625a86e410b6ad0de59fbd070b240ee27ac2c8cc2e214aa34f1595d810c85cee6c9dd466e39800092527ef1685adfde9a987e2aa2470bc9c80f3e0db13524fca69a4a298d075ca68885216845234bac7186b7fb35af8c7bd4fdd21ed188c4d6487c5ae7739f3f2dfaa44f9947cdc57ca1731d61ec479878c16338d388c9e7b27a4896521d80a4ff2b2e3ee9828a9b5a93a28deb6b1f8416423348b0f535d26ac02d7aa66cb0a25e58bc89330d01c6dbd3333f20f2384f998410fcee87765336ce0897ce81363d9e7d51e1f5783ceccfefe4e7bc0405f7e9140199a7259e64805d11dfbd384effb9b0153b825b0745e3cff8d612b502ce6eb28fdc06902b1d022d062b560b3152181b465f2a4e38370f2320be8a23b6924bc2a7fda235d22ea453216
def fr4 : List (List Nat) := blks 32 8 1 0x6b610ee72f2a208f21ed55325d33593260cd8fdfa8154ab012800ef3a1164888
theorem fc4 : eqLL (forsP O 14 4 1 2946766748834847 245 ids) (fs4 ++ fr4) = true := by krfl
theorem fp4 : ForsPart S256.enc4 hf pkB skB P 2946766748834847 245 ids 4 1 fs4 fr4 := fors_part snd P (by decide) _ _ (by omega) (by omega) _ ids_lt _ _ (by decide) _ _ (by decide +kernel) fc4
def fs5 : List (List Nat) := blks 32 8 15 0x638f2c1036c6697dd65f4b450b15c3331958bcb8b99537836f3df002519d65e30d8fbb6cb8766f8ced514e080e03e07500a5cefdfbcd01dce3b3a03eeade507fa1445c34c651e279f3ebd96962e8340a5597da17847db5c18dfd6120c01670ee3dd203fa2f55b2fbbf7eff4e8d173eceacf9dc85fdae0317f0dea28f33f1e18140addba8a94928b538d8f6776cf8d60ac3ba9c44bbb6e92c234887b77afc1785ced5b764f1737a49029179f5425225541502c5742e4160b672d62edebadd23d6d3d299d1daf19d3086873dbc81467a61b06daaa49cf972638a9a884dfbd37e16b78d0e594a78ab6094fa2e4edf0ff36b532d912c127726d4abc328a4079ef10cfcdfa42b3e5e2c14e533008174ee071a4ee3a66c2a11493f23e167b654385623537a9cfafb52df9236dabaa9a2928fe2f536f371aeb8c34efeeadbab237bb1d342288116513a8fbae5df1d21ea0fa4058925249fa33d0f5f15b730df30d38175f249b180feccb064710e598444601bad20fe5b50aa67d48613bc5be1ffb498c43d8bf49ad54250a6ccfe0d4d38ded00a18c0256ac2f304926f01cf82252f32f4d98c84c56dd254440a69b90c2e40d7994a2341efc59e9a30fff5a9f273a8fe28e8df9bb71f9a1002554eba6a0e94916e054c1742b220ef8379ff0b42165ef8f2
def fr5 : List (List Nat) := blks 32 8 1 0x4c9c555cb909e6a093e10710a3c9a74a4c0ba9f4f2ec00e1a5cd2ae4b5d2c57d
theorem fc5 : eqLL (forsP O 14 5 1 2946766748834847 245 ids) (fs5 ++ fr5) = true := by krfl
theorem fp5 : ForsPart S256.enc4 hf pkB skB P 2946766748834847 245 ids 5 1 fs5 fr5 := fors_part snd P (by decide) _ _ (by omega) (by omega) _ ids_lt _ _ (by decide) _ _ (by decide +kernel) fc5
def fs6 : List (List Nat) := blks 32 8 15 0x4ddcada58114b36edce972968d29ca1cb32b740b64f2bd3b59a7239824230b7f86b57a1bcb9ea426b45d041bf402ca5e19f80509cb576cb387d3ddcb274dbd74197eb1418943b677e77c0d3bcad0151f61cfebc4143cbc66ee44f46b732d723a9087624a4b013cd90bda85ab85ee3816e53fbe315cd504d91caca65268c7243b8e1780c6b83f340e45895925c235bbd63125f1e7202910b0823a03a3eea1689ce05fce7e7d4cbca82ce25cc76313a3eef9a939d126a5163a0bdf8e779a8b890ccc37f4202e6e95f2e6a144e5f433050dbcd1c6b64cff166d7158d5adefd0696a5ce2b016d4e2fbe3856635e2a29990187afed35b46a06913f205b57522f704b2fb411f1b4f64fffe3dd23d2f0fb9801e350a176e97c11d0d04bd6125d066807e15b9c5b3b49da6463edb452118d6e7bc7d1d3de9574480c47e4c276d0404ada31fdc84f64a1e9edc23f3b6c7ec472b9c29552106ef6675c2535a977dc743b6bf15913eaa9e44d4caa4a6b2f8c048d2061a2801c18937ba92617b96ce4747fca79b89a32c5dc49766d5e1d3bc04c682d38642052477371e49f9d8fbb5d9699c4be83c617b58857be28d7ff0220bcd204d07d2da29d3a2a0996be7a99faf4a2cc84ada6b4217e423e6ea09409938f103c75ee9c3714624b19a44eb3c2d2cc34dc0
def fr6 : List (List Nat) := blks 32 8 1 0xa4a6185f78597d9187fee42a4815e541429effa937858593c4b2d5af323a8a66
theorem fc6 : eqLL (forsP O 14 6 1 2946766748834847 245 ids) (fs6 ++ fr6) = true := by krfl
theorem fp6 : ForsPart S256.enc4 hf pkB skB P 2946766748834847 245 ids 6 1 fs6 fr6 := fors_part snd P (by decide) _ _ (by omega) (by omega) _ ids_lt _ _ (by decide) _ _ (by decide +kernel) fc6
def fs7 : List (List Nat) := blks 32 8 15 0x66f29855046dbcda4d3ef2037a5d997be90d7f22714fa9c128e771fe986f704fa7f0b9752190de1569ecea163b1053d70e811f8a42ed89333056546c5606a26e282b8f9322a5dd441fbabd5b7221746c29d07bac4eb681d5a3620dd80a82734f156893aa0cc7f7b1aeb8a916393463b81c4dd445000d35e0c6afa5cbfec96d1cb2a4a27873c13783604e15535bc92aa3a3937c986276792e0daf3b086d8791ada2e58e9ee9dac4efaca10ae7195bd7b965395b7d965b8bd8e35f65621eea24d6783b1e32ad6efa6f45c64278867cc12b397e6322bc39b6fa22b3eae2d88a9e70000a1c6da82a667ce97c32d5fa6d7fcd1fd0c95eb6feaab6aec1b69d16ab85ab96ab954bbbaf25ae4c426b4429aff9af118b7bd39b5b0559e7569910945c90e7d590f1972e5a9fcf283d0ef01d9f94197b88d3158391bc796b2844bc5021304a5976444be434620204e61809e087a317c9b590642056c3ce9a5629d0aed5fca0e58c59d87e891d11bf05600d9b395aa1659f44dca105b55292f616ba92986d663191c13e4adc2df25e482b0f7c9be128c6d344a666c73828dafb5df9b9518f43016b609542ae408d8e4f64240fab3d62c513a422b8c3cc7116b749be4c8947a89bec1c9218cccece962b992138fed98414cf32cfb9cde63d92b78f3e9b5cd72d
def fr7 : List (List Nat) := blks 32 8 1 0xf6888b0be55b59ee748d05b5dd1a33872266771f6d7366c37d848126f2d6cb8f
theorem fc7 : eqLL (forsP O 14 7 1 2946766748834847 245 ids) (fs7 ++ fr7) = true := by krfl
theorem fp7 : ForsPart S256.enc4 hf pkB skB P 2946766748834847 245 ids 7 1 fs7 fr7 := fors_part snd P (by decide) _ _ (by omega) (by omega) _ ids_lt _ _ (by decide) _ _ (by decide +kernel) fc7
def fs8 : List (List Nat) := blks 32 8 15 0x2174b0570475e0d4ab3f03239858fd62bd0655717faa5db48620495205306ffb83ff7c9ae63df8c8c479915f5a7dda301ab6f3305a57fbc482a4c13fec136b97e0b7093c4a66fbd3ceb9b7e546750d811d036959a4bbedd99928868449d8f664411f832e69f07959c404ceb27a48e6c61eadf3bdd60c915882d0f1445d316fbe4e74f86df113c4175848788dd9eab0aeb829e21a04282c11287a40e09820698e8bcc6faaef092e5da451b2553f4b57040bebffd61c9abd8e1a9553b26db48b821be18ce486dccbbc02e2fe2dc558cb519a39556f9e9a2d13bec24e6e5a73e435f72251d82232d526bbeaf5d92548e98a14af6eed9aafbf3fa33bfd122853e02ae9a556d8a88a475619d409de93f4056e60bd8e45265219e6a5e8f1d206a72359d6c7654ab335a744f3367be44124e0d6abdb9608e0246294d5091d2277d1f9bb784c2af3bdb67b6ace27de67d10bed2690c5d5e35f231f42e242e932a014d5ce161d6bbf269b8af95c736fa48054a134e48220e04bb416cc049ce71a6db2216f792b1f560332a7cac17dcc97e15563772adad253b17958b3e9c20409431be20420c1fef8c3e1103c385e194f0bc46b039d6178677781d74a404919a2cd8d79955321ef6c88d2d9977a84bacf42a67e2d74a8269bf237eb99e7667133869a2159
def fr8 : List (List Nat) := blks 32 8 1 0x7de088ba0fc17a0ba9b63d227968de94237f7cb04ae2951188ea75b73afad09e
theorem fc8 : eqLL (forsP O 14 8 1 2946766748834847 245 ids) (fs8 ++ fr8) = true := by krfl
theorem fp8 : ForsPart S256.enc4 hf pkB skB P 2946766748834847 245 ids 8 1 fs8 fr8 := fors_part snd P (by decide) _ _ (by omega) (by omega) _ ids_lt _ _ (by decide) _ _ (by decide +kernel) fc8
def fs9 : List (List Nat) := blks 32 8 15 0x7503e98ad5046fdf48310634073ec6b5a625fd9fd38b4d3b829efd67988717969fb3444808ee959ed640bd7723c025e6a567ddfdf5ee1e0b417eecbfb6ead78c9972db3d69ad5fbaec4b6c89bb832b212de2962dde5fa30dff7ea8efd45d5658f95a7ebeee41ecf15e74bf2a7ba3837b746bb823df8e76ad85a2c1a7ab45fafbe53a716986e8b21b40120bc9dfd195798da8648c355261564a8f0a44195c953c8ff3b24d7736d2c9cf92d08149b58a98b4e4f530355e48920186ad79d06e6e89bd27a3fcb13b66ceb22ad5c2cb1f562275fcb4ea0e3218dbf11ff2611d8d7c067359ef102131dd131c6844d042fb1f54db6c5c83175cfa845757d87f8765e959bf3fd8dee4f9c8c1560ebc0ea8ba7ee1d6bfc643e41b47262ed6549e62c9688cf23bea30059a635c05609cb5cb2ccd8cf45c0ea08efcc0dc095fe3daeee58e5ed89b58bf0bf37372ada02722d1586ccebaac8f6ac86d6bd82e6eb0ae6aac5a9a6211086b77bd0dec7c0dae5a2647f49472ea893c2b7273eb6851554bc5fef6a063de834376e2ede5ee1583d9accf2da64c3227c447001a10b0296d4f739dab07a24f7f2f1b2218273c1f535035699d8ba139fcab3cc475ee52244bc948f1b199a7f0b4b33b02b91e83b2d6e563c42dcc64f2cb171e5bbd1ef46d9d94b3302217
def fr9 : List (List Nat) := blks 32 8 1 0xc7747042e77193393c3c25babe1d766565f8ba90617fee6f05576354f17f2c3e
theorem fc9 : eqLL (forsP O 14 9 1 2946766748834847 245 ids) (fs9 ++ fr9) = true := by krfl
theorem fp9 : ForsPart S256.enc4 hf pkB skB P 2946766748834847 245 ids 9 1 fs9 fr9 := fors_part snd P (by decide) _ _ (by omega) (by omega) _ ids_lt _ _ (by decide) _ _ (by decide +kernel) fc9
def fs10 : List (List Nat) := blks 32 8 15 0x4af2b8f7c13640a65661a5ce052e57004d75cffa9807222bc13e678da87522b3c31ac46c0077bce2614efcd68bc8b963ab245a7594bf2cf7b0a283cbcecf4cd08fe204ba13713cfbdf50581b29fd4d38a50a139975f624091ae66dca42b3654b178537d81185b756a355cc5000e0da093f65bbf87a77a67e66d9c5e6d4edc076981051ed0634b0a6975d8f29c5b107c35b26c09ffa194622d5baccc772909f026bf4d8c474983e7f832b5de428cbd17945c3c9511ad8e24f16714c66d0eb46a787248e6b5ea16bc1dc09bb8b743d48f5422ec6c6c6cd2de1f3bcb77405ef4645272c3575128829a7b6778be60182f8a45aaf9829b6779d874c47a56eab796528c212a6d5380d90d1189cc3162f80b00ec1ab753fc161f6ef2f6750bf09dcd7d63e3ff0f22fa1e712b9bb4f08d6a591ff30f2555280bbc8c26e5b418c1f250e78aeaf14dfd9d86516219c7857b0ed55e8059436379cf5f3e365745dadaf6e297d9de832b5ad319ae21276a05ddf77d53ac8f971ac67ad4803f85c8e2360c476e3355999488ce97e8fe50a87716d2f518562eb324b374e24cc35254f4b3898b4991c73575a97cf385a2eea6db83d158cb4b91cbce97b11a9ac26d03224a510a0f8035133dd9e8a22d1f0bbc1d0f77d0939e88f275bc6855ce3b3250fef20c4e06c
def fr10 : List (List Nat) := blks 32 8 1 0x3d2073227bc63f046aa3696227e325cc0c6f884bf73fb8e320c257e3e5e7fbed
theorem fc10 : eqLL (forsP O 14 10 1 2946766748834847 245 ids) (fs10 ++ fr10) = true := by krfl
theorem fp10 : ForsPart S256.enc4 hf pkB skB P 2946766748834847 245 ids 10 1 fs10 fr10 := fors_part snd P (by decide) _ _ (by omega) (by omega) _ ids_lt _ _ (by decide) _ _ (by decide +kernel) fc10

end Kat.Sha2_256s
