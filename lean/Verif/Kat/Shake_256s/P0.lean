import Verif.Kat.Nums
import Verif.Proof.KRfl
import Verif.Kat.OpsK
import Verif.Kat.Shake_192s.P5
/-!
# Known answer for shake_256s: parts of the signature, checked by the kernel

Written by tools/katgen.py from testvector.h.
-/
set_option Elab.async false
noncomputable section
namespace Kat.Shake_256s
open Spec Spec.Slh Model

abbrev P : Params := PsName.shake_256s.P
abbrev hf : HashFns := PsName.shake_256s.fns
def sk : List Nat := [0x706050403020100, 0xf0e0d0c0b0a0908, 0x1716151413121110, 0x1f1e1d1c1b1a1918]
def prf : List Nat := [0x2726252423222120, 0x2f2e2d2c2b2a2928, 0x3736353433323130, 0x3f3e3d3c3b3a3938]
def pk : List Nat := [0x4746454443424140, 0x4f4e4d4c4b4a4948, 0x5756555453525150, 0x5f5e5d5c5b5a5958]
def root : List Nat := [0xc1a98cbc4d44ea27, 0xb77e979e4b48fd69, 0x27e755035234f7a, 0x9f83e8e7ed80f15c]
abbrev skB : Bytes := K.enc8 sk
abbrev pkB : Bytes := K.enc8 pk
def O : Ops := K.ops 4 [0x4746454443424140, 0x4f4e4d4c4b4a4948, 0x5756555453525150, 0x5f5e5d5c5b5a5958] [0x706050403020100, 0xf0e0d0c0b0a0908, 0x1716151413121110, 0x1f1e1d1c1b1a1918]
theorem snd : Sound O K.enc8 hf pkB skB := K.sound 32 4 rfl (by omega) _ _ (by decide) rfl (by decide)

/-! ## FORS -/

def ids : List Nat := [0x24be, 0x1a0f, 0x3425, 0x319e, 0x408, 0x1ffc, 0x240a, 0x3712, 0x3116, 0x1f61, 0x17ed, 0x778, 0x669, 0x145f, 853, 0x2074, 0x3c1a, 0x3a2b, 0xaae, 0xae2, 0x2547, 0x97d]
theorem ids_lt (i : Nat) : ids.getD i 0 < 2 ^ P.a := by
  rw [List.getD_eq_getElem?_getD]
  by_cases h : i < ids.length
  · rw [List.getElem?_eq_getElem h, Option.getD_some]
    exact of_decide_eq_true (List.all_eq_true.1 (show ids.all (fun x => decide (x < 2 ^ P.a)) = true by decide) _ (List.getElem_mem h))
  · rw [List.getElem?_eq_none (by omega)]; decide
def fs0 : List (List Nat) := blks 64 4 15 0x8c5029550e6fb90178eead29a5861824a07e545d1ddbce4c1a87a38a2fa8ea1a8b24aa90dc489e1f893301a86092185e615fd5655920caba7b4625c663167e00e0bf28d4252214547809ffec55ff293ea290cf43b9877d28f8ac07808c2a4eae46de30a6a849154ae0d4be9eeb9c3191714b1abd449f06fbac41ab89795d87e46c2c1b23d335d8fdbce6fd89e40214f3515c499e070cfaccdcfd16dd883f01e25512fe21160935b4c936861075dd3bfe9870b308ca904ead5d915643c8b1ac63f6326474267a63aec0bbeffc1c49ff317d83e4bd61f6a7039660cf2ce05e6988da811236a33701a4a3cbe3b509279bea1ce02241b895350bd870cb5d647426765b9c58eb8f4dc81da4c0299d35a7a1881a0f27d63670b5e2629e26773e177d85e454b14fc676a36a391d9908f145447f5297161c34e7a579db60128bc716d1ad512f02c2f9479126ed3244c34b36ed06f6cf53749d46344dad96c91ec7e0a8687d52d2bb517921de614e6689639d565b3f99741f01d238d6bff72cc924b72842dc5a340ecdfd1b408d7ca5191d74b7ec8c5f4fa6a15f73f27ae8230d922c9f64a1f575277e788c30cf604081b8475a4db65961edc25e6f7651085387fa3d5e75c440d8394fd3788a40f5b1e5b3a20cc9c56a72edf5a58704c365ed64e81d0f
def fr0 : List (List Nat) := blks 64 4 1 0xddcca2c2f2f14035b8c79270bdcc270a003450a5fb1c3613105cf59b79e69981
theorem fc0 : eqLL (forsP O 14 0 1 129844535052028 143 ids) (fs0 ++ fr0) = true := by krfl
theorem fp0 : ForsPart K.enc8 hf pkB skB P 129844535052028 143 ids 0 1 fs0 fr0 := fors_part snd P (by decide) _ _ (by omega) (by omega) _ ids_lt _ _ (by decide) _ _ (by decide +kernel) fc0
def fs1 : List (List Nat) := blks 64 4 15 0x3b3d8a4ded85319e48680875fa546bd4693ac9c51ddead19c73ef6426096217da1251182b1557696fe50f176c864868df71c33f712eca400ed77276a548b990c53878662eb76a25682ecf03b0b1768329283b31f4998a08ce04d40d3cd967ba62b94e85684c38a5b13d4da8eba775f17d4bff87a5a85524a3eb88ca223e975d7ee284ba3d4f7da611c93d5820eb4aba6fa65269cef621601660aecf128f7fc30a4b379f528ca9595db0731da393563954bfe2ede7730351c77ea0bb7da755039b630e7b743d8c93092bc422da51dc31fe2b8a823c3ace1b46744642cecc80f8c51dec1304ca359a93120c7b5368e677995fa7a287abd679f91f2bba2bb69abbcbf2477cc735c0f2ade674c579307a80b25899ccea326b86724f3c15a2ea0052e9fa915e12aa467b8c4edbf5af962df94ef52628192873e61367962d5553f8c5d0c9ed8193ef796ac457a50c7c6ff77d2b65c730ecc012b12138d135d2aeb775aa14171b7d95f40beb3678b42bcbba38c3788482ab87ba67bd397c0a1c8c74acca6d6c6e984efaf4ed51df8b85db12f3eab882ea98b241d60954279d4f64772b07630ccf06418d1d7aef1e96fa37949e4961a6d4905516b875aa5bc0348b8be1c2cc842706326ccd0df382087533ba12abcbf098a134324b3cfeed07fb66f5396
def fr1 : List (List Nat) := blks 64 4 1 0xbb7ca13c3e9190e97dc46b8ba091f201bb45173c577f628ed291ce8e3fca9daf
theorem fc1 : eqLL (forsP O 14 1 1 129844535052028 143 ids) (fs1 ++ fr1) = true := by krfl
theorem fp1 : ForsPart K.enc8 hf pkB skB P 129844535052028 143 ids 1 1 fs1 fr1 := fors_part snd P (by decide) _ _ (by omega) (by omega) _ ids_lt _ _ (by decide) _ _ (by decide +kernel) fc1
def fs2 : List (List Nat) := blks 64 4 15 0x2398ce98db67e77e860b63b93d1eb7dca96b836d554283a45a864cd367a4f9124ff2e82144c9315969ec3790090903c91bf9e6211825a2ad2cda087fee6543e58b02c9e119fc26db6150593f497aafcbc26f568b37b5d51f4c6bec521ff4748fedfd20444206096a80470f04fc3f993122e2b186cdc93ea1fc62625a3f2d64c17fdcca1a56f45fca53fbeb3a2d5fb5c3e3d20cc2672a1157073bfc4971378e990abcbf11f554755fcd549c57fe2a5cbe3e28b03314bf3a9898720a7c36c240a2c33fce46c04b5d5e365007f4266427e80298efcd502eb980a91b812ee373ffb72144243adbcd752fb5bec32f6b93674f77a54b36c97775acb7ee4245fa20157497e7b816d1f8dd3be8099d44d832834c25d2749566e10e40034e21f5816744c72a6c8b1f394863ddbef48c2f899f0e7f329ead6694f1ff5e27a98b55b171638421b7c1b2d82b592060b7a38284509b4eff4efc32a5943807f340cd0f9ac2fe224521b51f6727897e2f9ac3378a33a4e31221045c230d4abc22517236f43aae6e0c4a33b1ff0c1646bdd3eb31109874d68e4932e8c3e506de3931cf34578f0256710b02c09fe8e22c4413d19c61822c3c906f702ec405c7316c0ef8fc543c05224b585d2c0c62ae32cb124bc89b48aed167d9cf1a54054c19365ab4aebc5a582f
def fr2 : List (List Nat) := blks 64 4 1 0xb2db4cf43ab8012c9573878e806ce779958cd67ab1481b0e9449bf79bb084b5c
theorem fc2 : eqLL (forsP O 14 2 1 129844535052028 143 ids) (fs2 ++ fr2) = true := by krfl
theorem fp2 : ForsPart K.enc8 hf pkB skB P 129844535052028 143 ids 2 1 fs2 fr2 := fors_part snd P (by decide) _ _ (by omega) (by omega) _ ids_lt _ _ (by decide) _ _ (by decide +kernel) fc2
def fs3 : List (List Nat) := blks 64 4 15 0x9bbeeec1b3abf4017d5cb949a44a37fd5b79f936fbe04df1a89b611c9b96d6c0b7d8b4e736d9c6f7a1ebe6830e3752aa206f463183912a0f7bacbb5ffc0882eed8b7756c9e369cf857c1b871e7258666346eac6c225011881e6e619eec7d70cd54537f6ac99c886a3f2579d1004e9de0b6dd3b4ef47d14f98f7931b7b46194e3277566bf82c47e4f64ed420ed322e1b2cc461abeca6d3c240c8ffa6a42c34fb446d761695469a22a85f860ba711fbb156e2e2c40752ebd2d3622ec656ce9bc21583df037dbe0d11f50ab1d2185bbd055355a6129fc95c9fbb851778008b6023d03e70cb7036b86f120a4e80af3d3835c14feb4988242db5871caeb9bb549f88d91ec9a8077cde4672d5e99a659a3e4db4e13917b27aabf307eeff4311c85ce0034fdaf94d0dd6f21cd2a40cf433c69c591a9ceb9e08554d48c9200ca4aac7c7583d697dbe704ddb01f8aaf708c58d8e88f077705856372e9653d07356a6753fba72828c3e504e979f5746263e27bd2ae64cb9c3caee151420c7414f7380f4f5251cec8733229c834c897f59457c2a0d77c3f1ad11ce3f802ecdb83317bf82307d90b1f3332bcd8956b302dd1c7fc4ace490684df0249e2b28443c248c5bea215c8fc83db2121fa3d01e8bfff9fa96bbfee7e946f9cff71b615c106d0392364e0
def fr3 : List (List Nat) := blks 64 4 1 0x4327a0508869b049b2e8ccbc1c54da403831fb8de5338fb44c1bf35c6cd42017
theorem fc3 : eqLL (forsP O 14 3 1 129844535052028 143 ids) (fs3 ++ fr3) = true := by krfl
theorem fp3 : ForsPart K.enc8 hf pkB skB P 129844535052028 143 ids 3 1 fs3 fr3 := fors_part snd P (by decide) _ _ (by omega) (by omega) _ ids_lt _ _ (by decide) _ _ (by decide +kernel) fc3
def fs4 : List (List Nat) := blks 64 4 15 0xa227920d6369d14e684250290848fc10eec4ef90239e25a8ca4db7b064dbc35ac799fab8b8d78df6f7f664c4625ebae4272197cd2c27301b6d0680b0c08eeaa25f2eaf1cc8c78d0825638d1c23288a9163d00960f33f9d7dd94c41a639f0507f8f2169fd1b164f53a3494195b99ee5ce8560427f8e5eb8f4ebdef003312164f8ad8c8f6f2e1cf6af1ada6144569b5f0a36fae47d608b1a5ae936b16ef67b41c15aa0b25d3e67d5d67c6105e1ca01544f97a4cccd98aa9a7cfc31dafb588ca1e7650732dae7a6469601dcbbe014ab3a9765a0641b07473ee2158a36e53b54595229d76926b506f00bb881da2b14cb534b8e6dd4c680cf6de88d94949ceec40d6f90c024b7b309179883cdd5ee32fe3ef9366efb561d9f7cb1d02b13bf1c7d61c5233584a47de69c15b7173f82f7c9e2781f989357bf9e0bac1ca35be6fc7bee4dfa055a71c7bb2548198e5f5730428f2ce3e7a73394d2c021d51a0c4a40b01a7225163193d360864fd2ef17d93d4fe73aac41d920c45831f857b6f7f838063a21f7fb09c9549fd86f9f1832bc67cf413a6609b9033e3a37b4efc662a7f0e4808a5576d6fde08f81ff4cd7726d59e3de4c13a04def7277b943a421a6b255f8931ce0d7adb89f208c5acd55d3fc9d14b7a1217f12c9b6223f17d3b265084058e2c7
def fr4 : List (List Nat) := blks 64 4 1 0x718c395e6d32b57d107f97e5636a2b0cb8b3a804af9c7d78c32274f408e6066d
theorem fc4 : eqLL (forsP O 14 4 1 129844535052028 143 ids) (fs4 ++ fr4) = true := by krfl
theorem fp4 : ForsPart K.enc8 hf pkB skB P 129844535052028 143 ids 4 1 fs4 fr4 := fors_part snd P (by decide) _ _ (by omega) (by omega) _ ids_lt _ _ (by decide) _ _ (by decide +kernel) fc4
def fs5 : List (List Nat) := blks 64 4 15 0x6b21258e8c4ad0f5c6ba9cef1076df193c3c477e710a6b312319cbb8be30bd7023608e223384bf1704e2848acd026eccac54587466a5a3a99a2ee9fb6b439f12ea35b5f904b3f98e16a9644693cd7c205f9c4b75f4b70c7e47a07f38ee303ae29b2463d80dba50e7715588ff8f4839a37771fae9c095672111d3f5775f57e0d82225aada364ecc33f765d68b9927ca4ff18b35b5a84e3b7cdf542a415c81bfd060204f54588fc9afc0dff48586beadb3fb99049814fcdac378c0a839a8ea82de4c63ef13e76acfa1955fa6a708dba86ab8958deb7a0368885085a49f768c87795a57697ed9f9e9e9e6f22606f4055e9a6faa619a624a65b7c59442a5fa7bb7c4406e7c2cf8bf138b627ab6bf4b44751fa4484265ae4a5e594514613575c867fba740d9f112e2b486bf988e817e1933031ec781dbad4712afe1823a7f85d8928dc4e79e9a47c8ee932f03547e2ca371d98beb188f909806d7c64b50db0212a1dc96f07c37d5acbd3f479b6fcd4fa9287b97f97fa71f1f508fe1c3fbd39b92ffcea2f261e99d0fe55ff6f0d38ef3305ecc0f2759a830892a03f50764c2237e415abd48593c8a6ee427582f32fdc72b5da7f3a42b63f222c24097c46a04431196f9f415d948c1eafea7565922496f24cf230377093841bba76ac8aa9a2b126affdc
def fr5 : List (List Nat) := blks 64 4 1 0x3d6dbb344b4a4ed7fb19f7fcc9657283a4f500e2297c4f3d32ca0c44ff3c6a7b
theorem fc5 : eqLL (forsP O 14 5 1 129844535052028 143 ids) (fs5 ++ fr5) = true := by krfl
theorem fp5 : ForsPart K.enc8 hf pkB skB P 129844535052028 143 ids 5 1 fs5 fr5 := fors_part snd P (by decide) _ _ (by omega) (by omega) _ ids_lt _ _ (by decide) _ _ (by decide +kernel) fc5
def fs6 : List (List Nat) := blks 64 4 15 0x40b1cced98d0fce5daa5796d0550453b28b05125381bbb4964590dded4a2074768335ded8424286f2d99eef029bf6ee0b2378c8e401769a5e26bf8fbd04fe38f35c262d63ae95493146f91bf4fa20ddd114fda2d09bff5d0842e6ea223bb0767504aa88529a1fc06ef82936e0f1e3ddec17b48af4e1cf6df85e95e104c6931ac8eb31963e73e0e1f4f7fb051b82bd922216957250a769b9b48d16ec761e8faedc27cce904145edca4f79d586a0f22a433e38bcd56d1c138d97a68128622f2569272fa38c383157492068c4b17cf71194bccd2835a03a39f73858468b7919626c7e84f016a19e7fbd36d06c57ec77114a1da8bdcc913c92012209cb74effc89d2e7590a4070dbf2dcced01a611fceea8a52b59cdba114571f7dc1f309424ba63994fb8ea96219b04d6552d0db81c4a9363068d0731c481d23122e5c0c08e6f113f0c8fd2110afb137c2d3cf8a93d982be13b766d8eec9352f754b567e153798452819975e5c332a794b0e5c6e53d73fbaec8df4521af154147a3c76e5e1665c0607795969b68150a59cff716b729a1997a9227a69524a80e0fed4bd9692d03674a196040349a712ff973d11601722aa1a797f97ae93d57742feadc7074d4e501db94337a39ac58d748b912cea46aa6b2f703eb3d8831fd93875aa895e1c3d6307
def fr6 : List (List Nat) := blks 64 4 1 0x6f18952115658c8c83097a6617f5d64cef70d6abfc420176333ceab79b7d79b3
theorem fc6 : eqLL (forsP O 14 6 1 129844535052028 143 ids) (fs6 ++ fr6) = true := by krfl
theorem fp6 : ForsPart K.enc8 hf pkB skB P 129844535052028 143 ids 6 1 fs6 fr6 := fors_part snd P (by decide) _ _ (by omega) (by omega) _ ids_lt _ _ (by decide) _ _ (by decide +kernel) fc6
def fs7 : List (List Nat) := blks 64 4 15 0xd56d516a99a90eb165dd69ddeb92e9f960ef4cfd507aa9f624b71c91c3bcb3b19e5f83fffca08986a00b04df687a5c529e7cbbac5593116040f4cb1444d5d35819345e8a38d36d0db3dc4e5c44c20d254aa55ec17167a335ecbe670ca4cec9ecda61b490fc652d0eb13575d747c1a81120e51d90924e46b74e6eaf31319e5b6da56f6189996e00b0a4c919e2b98c208545ad7dd8a38df075d1c48139ea9d9d73ca8ff7c23ed68561f776bbc66354a33744aa11ca170c71ab3360d341b06fb19b432795d52a9e209809325dac99b09cf089aac9e201f6b9db644130b306bde0919956493e6228f436855e615b989841e3ea6b7f4137f97056229d46e04b8fa3ac1cb365c1c092b0feee843b638cf106eafa22f19fb3ca8b07a9d86167373b7f3ffe00cc2f72787237214315aeaa7750f949792685b9fe0e32b0cd336acedee02293448db11f6a2c6da218ddf55d3edf19435ecbb2210d6cb1414ce202e94ceebadd56df1a1d59ce660ebd3762aff993440b637f3cc79c94818289aa6d11e14a83e4c768fd778998dc18a16572d9bedafc52c64a9e7e4386764643b285d26a0277d692e8ed95f79c67c52af323d5534ffb00db6190f2ee913e718cc226033d29c7d8bc20e801724d92cfc98c676fef5cf9edd2fc3c6285b434dd455f4d4bea928a
def fr7 : List (List Nat) := blks 64 4 1 0x9cdf657d44b466e0b073d167b960f6fae8a22210ceae9fff0d8aa9084f6604d3
theorem fc7 : eqLL (forsP O 14 7 1 129844535052028 143 ids) (fs7 ++ fr7) = true := by krfl
theorem fp7 : ForsPart K.enc8 hf pkB skB P 129844535052028 143 ids 7 1 fs7 fr7 := fors_part snd P (by decide) _ _ (by omega) (by omega) _ ids_lt _ _ (by decide) _ _ (by decide +kernel) fc7
def fs8 : List (List Nat) := blks 64 4 15 0x61c7a6b3a1dc94819afed7c0c87f9e0969dfd7136f3a76be0db1cabc40156a33924152e946a576c880fad20f8a3718615c3abfd7691436f57aab0f73082cc2430c400c7b48a788834307e172b81f509f0c411d3a5909ae505870af78ae2be8d722729de0d3ae2796221c8417cec6ab4996f0ebc7002ca75dd9761da7a06e17b83bd6ebc8ad7697470d4fa5a54133de6a103606d1536a876127fa6c03eb0a481a09410679b1c3ae851c7130f0fd59b29dc6ed1d2f5cfcfe5188a8ace736c307d147f74a37d28867ada3537f91330332a2b00feb8386e15fae48d8fbef5d7932d1b10dc710a86a0a553ec495fcce5be392ee3b4567d68a2c218a167c7fa6381a8958002e91042b7ddff1ab51c591d60a686697dc3192c5dfcde7bbba04f0b061d5e5f1a2f8a22b1ea6c0e8240c6e7793dd1888664a9c0aa70aeee802339e05bd1d4aec2a458b2c9b23d25cfdb707013697cffd33ce23e4fb0a62af47daf7339304448835dea1eae137a4241a1b1a9eed565c3311a28df542cfa541fa287b621e36ded53be16213ae352b6b50cc668a6621332c009599485eb52fcc5755c26cead0bd1aade432baa003178643414b308d275976dd08b8c8815d694d73df85c593adcef83819d13f2379a6f128b5f1dc04c344cf3eff0353a78809c14a7d482a563a
def fr8 : List (List Nat) := blks 64 4 1 0x72d791f04a9b7805391bd9478ed2b6b3483d52296769b7ee94628580c3a29c3d
theorem fc8 : eqLL (forsP O 14 8 1 129844535052028 143 ids) (fs8 ++ fr8) = true := by krfl
theorem fp8 : ForsPart K.enc8 hf pkB skB P 129844535052028 143 ids 8 1 fs8 fr8 := fors_part snd P (by decide) _ _ (by omega) (by omega) _ ids_lt _ _ (by decide) _ _ (by decide +kernel) fc8
def fs9 : List (List Nat) := blks 64 4 15 0x639ebd71d287915817a13ef0d4178a4072eb60c44f9dab4f343e30185b05b55f5bdd4064725719966458cee9a88460a3ef5b4283cf8e426ba8f276d752069641be113a074414209d3cdab64ff14b23e3c7942281137d43626a37538b860dc73dfa345b73f39047204c8cb0c0036b15b02c880ffb137199b27de38684ef903f2926389e1f16765272294b445dad8600b5beba4f8ad4863217abf38590721159fe14e5570a50594bfba7b63a20aba52bf00ae21ae511752d420237b6a1eaf161a1f101afaac6471311f6da607b1d2740535089bdfe6c0aa1e48e494d55258e0db506bc36003d8f926c674f92fbfcd6d66c6dc250861713297630c9fde7141ca6264cc7eef861c15a0cff73f1aa2a25f3451254bdb55dc725271b5b4a0c24de1944f8e4be2932566ca83eac95ab5ebbb1caa3a63f8e7a716dc00446a88cf0e5a13da51302b60cc55bd5e737575cc5aad8b1728a929cfbdfcb0d067bf19b33d0dec10bceaf964c1a23ad0b455ed595e574ac5cfd72dbba35874bb11902eec06e281ef3d91fac8f1c15564442950de53e397665d9a94ed82566eb9c800311dd2a6ad19c65f22d79f8097ee95d6477c738bd85528e734cad0639ceb76a24b7ab8222247cd402658d8f2d14676d25c1e5a0b554b025dc09e0c02d48713caf9b43b80c03
def fr9 : List (List Nat) := blks 64 4 1 0x562fccc5772f16977b2b449afa3759f9a5a61035b93a0d7ecc122e1206d1c549
theorem fc9 : eqLL (forsP O 14 9 1 129844535052028 143 ids) (fs9 ++ fr9) = true := by krfl
theorem fp9 : ForsPart K.enc8 hf pkB skB P 129844535052028 143 ids 9 1 fs9 fr9 := fors_part snd P (by decide) _ _ (by omega) (by omega) _ ids_lt _ _ (by decide) _ _ (by decide +kernel) fc9
def fs10 : List (List Nat) := blks 64 4 15 0x47378c0dc1fc2f130c13de808f21ff0408d51ad51ae9e7b619eef8c32dbc4f0f5c21ed12bac14988852e5be98861813ced3c153bf34ed01db5c08b174241bdbf82a05bef2d69cd289a2a051d1196666375bec64ac15a94922f91615316b7737df2097116241668a76e6e33f66103ab615590e71dcf49df9ed80e56ef970116af998c1abda784918ed9ff06387c7779c7c2cfb964bca4030309011bd45e9497d5df2ce83b5166295cb8aa0d39ffb3565e408f7212d21ade6dd4c547d5e362a0a53efa7690c85685bc61fa16e58b69d1aa2b9de67301ef7e8462833b3f0181949d4c9bd9bada895fb231a2c1ade893cd11f1766454a9d8d31e83c03434637a3177d616aee318a3bd0d09ec17f80381d16ad64c136f42b322b526c3d34ed9fcc066a4ec41607076808deed353c3ca1eb156c4a8f0491dbbbc411be570be664e8c1ef9844629f20ac44399f9ac89168f2a1c24cb5746e4351b3323cfd7ed30007998bd16669cd55cc3ea5c5c9a8bf077133ff636f5ca8239432fdd52627062bd63e571602c4f1a230aa6abf0b507488fe4696eec2d902c6b1f0dea8da893774cdb9e62689db243e224d0e404c7400bba552fe080e3d47e491769f600ec91f31f9f500d5e07c9a9b9d441c3898c42c020cbadec991a424ef9e193b6051ffae34abe9d
def fr10 : List (List Nat) := blks 64 4 1 0x3bd15cb9eab792f0f37b2b5b757ae69b5e82f09de031acc001d539a837f431c6
theorem fc10 : eqLL (forsP O 14 10 1 129844535052028 143 ids) (fs10 ++ fr10) = true := by krfl
theorem fp10 : ForsPart K.enc8 hf pkB skB P 129844535052028 143 ids 10 1 fs10 fr10 := fors_part snd P (by decide) _ _ (by omega) (by omega) _ ids_lt _ _ (by decide) _ _ (by decide +kernel) fc10

end Kat.Shake_256s
