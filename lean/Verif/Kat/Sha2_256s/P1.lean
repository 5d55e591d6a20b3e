import Verif.Kat.Sha2_256s.P0
/-!
# Known answer for sha2_256s: parts of the signature, checked by the kernel

Written by tools/katgen.py from testvector.h.
-/
set_option Elab.async false
noncomputable section
namespace Kat.Sha2_256s
open Spec Spec.Slh Model

def fs11 : List (List Nat) := blks 32 8 15 0xe840477302b065f6bbf5756c5d6e7f7b8f399398d18a88a29f10bbaf75b3c3840f87a2767e2733cd07992e9ade585d35b63bf4162e8740099cbc40619b72d629d26488ae10ae3dbdb30bcf98749c9e8c7a5ee4ab04693ccc9fc45b85d1b8f6af4beaa1a59bb7e81f6c7d93c64c9821f78eef1c91f804cad681f4ead1ad4d63b18f03bb0be20e9b9dcc7cbd3276f557ea5e7e8ce9a8c2778770de6c422d16e3376f285b3a286eb14c955fd9bf7174b565a98ac27e79e22dc490a729443273c77b2c107db6f4b4083239f73a7213dac6512c3bf916d60179d594f49bdeccfb10f6a9e5fd3df98b74136d415fd51f442556144da5b51b693cc0db15a09d2cf7fef88f3d51099e62458553ac18d760b9b42f0d59f8f8fb260999e81722c2099eb57b6bc434b4ba501bbd90a3ed33f284edd5ab63bdbbc424844ba22d446c267b87150c413d77d76373860e89d56a077e76d5355d2f4a3a85f500b1c5b45f6e00afa8f32523360373fd560d60ddf22518705e893db267403a6221516991396ff3442e888b260563f4402d6b73e25705cf6da3bf732e478d7f741d05d661a3be56b3cbe533189de97e5ea375b729332c46eb045017655ed28e5769ecef8927f6cefff36d92c3d3309d3774d405ff2e4db206a8416c1ff1b8efdff83ad2773b07d5bbfa
def fr11 : List (List Nat) := blks 32 8 1 0x1e0d50dabdbef1a77e0226f56b8117ae94a15fac2451f63ae29b196f6c6ee270
theorem fc11 : eqLL (forsP O 14 11 1 2946766748834847 245 ids) (fs11 ++ fr11) = true := by krfl
theorem fp11 : ForsPart S256.enc4 hf pkB skB P 2946766748834847 245 ids 11 1 fs11 fr11 := fors_part snd P (by decide) _ _ (by omega) (by omega) _ ids_lt _ _ (by decide) _ _ (by decide +kernel) fc11
def fs12 : List (List Nat) := blks 32 8 15 0xc843b79cdd04dfb3f0a5434eb38b68bfe88bc42151323cc9c44d19fc7cf9517d56ed45791693bd32b8f385e31ee1a6d67a1d2878a792d127ea24df84fb38686723e3fc90fad6e5a7fd1954a9d579e3a5509c74dcd24484cd0ab734674942aeff716020858fd3a1dca9dba478cfbf75513eaeb79baedf356e71e802a2f78e5f513a7c32f98a442c35f42e3b139f75b38a91ac466f35b80f23223c6adac196f662ce8f3e053af634e5c11cb3b4e039f2059fd2a6e37839f301505f7f0d3b73b09414f162f071744622fe469ac80a34980670f37b9220ed9c5f16a63cd713bce2168d9f2fcb35f1eec74d45c84807673d862112c164d49ea0945c97c318f85c2f8f10b3a895a91da837742248f22d8aa1b00f03b0c33df46f2bf7062c7a8306dee78f1ae7162e9c4ea1e441a2a27898da375d7c14271a41221c808f1d9dd7fb1563c15866dd14e4cddf5c0e3016df1b5955f14bfecc12c96372b3d7266d7689a4780a7f82430b51a87abc3478c5794b5f53b1ef606a2d5f714c9b473f0192079af32ec89f553869b8ca061635ac5de42b78245ddd05d0c5189ad749f97b31970bda4bf2bce72df92399c1a335338631c5f566af7b3ab17e4ed321e1578b45a64f902e4d6a79db2874e97de317d2a575e89e1182ab184c5b86c4d587f1e8dbfeca89
def fr12 : List (List Nat) := blks 32 8 1 0xc884fd11a0254e32a8aeaa40288164a6a2b94083491c46507ca7bf89325b9e7f
theorem fc12 : eqLL (forsP O 14 12 1 2946766748834847 245 ids) (fs12 ++ fr12) = true := by krfl
theorem fp12 : ForsPart S256.enc4 hf pkB skB P 2946766748834847 245 ids 12 1 fs12 fr12 := fors_part snd P (by decide) _ _ (by omega) (by omega) _ ids_lt _ _ (by decide) _ _ (by decide +kernel) fc12
def fs13 : List (List Nat) := blks 32 8 15 0x89d22af40024ebf4317fbac544868a2fc96eec353969b36a0d17178045e539ca67fb6f8c72e71f3722d55e3cc3b6cea97b4322237403291a88ea32662f9c741941a150482d1f608cd968b59d3beb6a3cb9005dd4a79b43bdad0779382748a01ec0b1adb4ae7ccc2f1b0e2322fbe7a4a0fef73ffde17cbe6e930ba1a43a10e353a4cef098501f27de05390a0d56a6481076266b04435c80bd8a87336711d05457578488cff361066a60358a91579874578efdfd8f83759166918699cb107e074f36c800544a230f2bfcfa371657d438402f183332252baf8565437dbb83c43a0e5d7c4def14a24a127fca06088d3ac637384e040c59c03e1ad3a22f91bebe8728fc392e7f2178dba4acda459da6c8ca633edb8252152412e26658160767fc84a553740e872a1c6424fc8690ec0be6fbb9a5515f0bb4414a15201dc7c903a2d22fafc6996a18b6b285f314425787ce63cc3148e380bdb0fe1f838c1e5578cc51d7add956f1707aa247bc35d00ee30efa07fcb9d889fbde049b1cd789c4f9ac3b87994d055c87008278557e6bc4fcf3c8f0d7665315415fdf099eb742a8fd3b8fc7d99e89634bbea15298f66cc735e041d12619698d03fab3eba1eedd6d5b0915688f45bce4f1a8cd21645872d1f1144c387d07da671fda7a207cb25636e0537da9
def fr13 : List (List Nat) := blks 32 8 1 0xacda7fd4d248b7a666621a49f58930139c3c12bf29bbf8b83e042154a413a76b
theorem fc13 : eqLL (forsP O 14 13 1 2946766748834847 245 ids) (fs13 ++ fr13) = true := by krfl
theorem fp13 : ForsPart S256.enc4 hf pkB skB P 2946766748834847 245 ids 13 1 fs13 fr13 := fors_part snd P (by decide) _ _ (by omega) (by omega) _ ids_lt _ _ (by decide) _ _ (by decide +kernel) fc13
def fs14 : List (List Nat) := blks 32 8 15 0x61887c0d2ab0b68b5a987862665c443c1d900af80b5faf4a4591331325b6ebce0c7f32dec3d90f06bae09e31dfb336ea3c8fe8f3ab6ae3cb51cc1689700f37a0be930a420c5969b39787bda533e1594c98336d65f29135fd3eab0895e88bc4f15c33d44868fe4acaca2d57c37ed53aa5b4f2287f797435ae186ad218b4d3c787016e88ff393fdcf40a8c3e3fceaf8a5e2c0549c02182ae67967c976ca9cf2afec7e1f898afebec8292cabce1024089cca04ea6e20a7b176901c566e7f5375331ca189e64bc3d21a037734c70830aeaf409b6e037e268022741fdd1ea5e0b33f06bc9619a9bcdf34f0c7ba5f20d2122a45497a5d57c4190e496f5390d935d31eb365ace7afabb2154f0232add2d7b422a45b75da8f9f2caaf048b89653194b7da6b9d70b333cc617fe12af76835d8479e8c43deaf38f2b1274c4feedca743961232ac1f15c33b825d4f80af492932f68bfa2fbef638a0fdc8ccf5156936300e3b436f62accabd32d94d0f951f69ae13cb71d705af1199e6c1157a9381fc30a63feffbfbdda13c8503c9f7965c1f870acdaf0442b8f7af8df42a0a913559226b195699d69993c4fcaaad5b5ef648e89dd529ea75e600b6a0958451bca36b64a82ae0fcd3dc168aec68002c9e0ec605d42b27161af88fd4322664d87c0a83921fd4
def fr14 : List (List Nat) := blks 32 8 1 0x3d56ededfbc9e7a2fe25918c98264eaef875b4339a5c21ffe57cedd383b837f2
theorem fc14 : eqLL (forsP O 14 14 1 2946766748834847 245 ids) (fs14 ++ fr14) = true := by krfl
theorem fp14 : ForsPart S256.enc4 hf pkB skB P 2946766748834847 245 ids 14 1 fs14 fr14 := fors_part snd P (by decide) _ _ (by omega) (by omega) _ ids_lt _ _ (by decide) _ _ (by decide +kernel) fc14
def fs15 : List (List Nat) := blks 32 8 15 0xf223775960fe4d18bc522fdcdf8df38222a87db6a9cd16bb20d2bc29c926ed169ec5aa5bb31e3e63f60c8b16a323cd7e062ae291e045a578255ace937384fdfd655a672761b4f7bb64a4e39ffe6c45220a7b696ef963d4f11a8f3999fe5ca5bc18ac97c3902f0dde2bbc2d27469fdbfc1b4c0ce1026e20acac26e0d1b3ed5b73fa5ec7f3f76c1ce7c5d4ce1d308e66b5a9ffc516f423e89f1c3de415d10b659259e22a95da36dcd295a0abf12c0f3257257eb5ffdacfd0d1e41d15fecf938fc20171e4bb1884b22371e4fb1400401dd03786c22967809dfdd15defc6967e74119b4e5d3e57e5f737847bd598db579ec8d3c51a9846ce0331400aba5a4657962b0a126187748f055576f5fcbb8e0c0fe5eadff1e69906a2f23d47e309b8f425d5ff399a9eb446ead6594d70f1e9d850efed94fc5e5ca2c014a367e72315bc3b79cfe4c4f18cc88bc1800f3134ad507f2a05874c9daedc92a56fb94d08dd7dfd169c01712136b044a3aba253a2d235e5fe53a206d8da893c8b57379cbf0ecff07ddad34b83d2de36b485c01a79c26e898801985930d2212633eb3c26c81ffa0c18ada127af3b21ee86bd0438c4aa8eb7aef40c97020823369d8143a284dcae2c4b89727e66a4d36f50678b6881469229e1263511a5303338296f7b0d9adc891815
def fr15 : List (List Nat) := blks 32 8 1 0x452d0e0a0e966176377aa599e9a086ae651021a703ead5d41e529be36b6e4813
theorem fc15 : eqLL (forsP O 14 15 1 2946766748834847 245 ids) (fs15 ++ fr15) = true := by krfl
theorem fp15 : ForsPart S256.enc4 hf pkB skB P 2946766748834847 245 ids 15 1 fs15 fr15 := fors_part snd P (by decide) _ _ (by omega) (by omega) _ ids_lt _ _ (by decide) _ _ (by decide +kernel) fc15
def fs16 : List (List Nat) := blks 32 8 15 0xd0ec76f78cbe142afdd1b4aa8941c5c9df8ee3417c944e54c41a91e45b147ae1bbeb8fb47e4da7233d98af0bd54ec1e38de2c95504ae557a74b7ff15d1c20431a5c1b6bcd8fb419735f0eb30e7dfe39486af3b12b88db3c460e5b045229ea47bfe829a2c0656e3bd59683b097608ebe01e77a95af1635d030a51d725d6fe7483c433f94a634be7092d7a4b512816bb7919b97e11c6735ee233d061387ffee580d82c8e83dfdd24a9238842ad29c2d93d7ef8af522a5f94a3e5cd084d987487e68b30ac581b9fa880e12ffc2570143a9c906eda16b0ced96b904f5d024651a2a57faacf24463c384d493fc9be9862a19a6163c5e94ee034ee611144b833316cdf72a6f9382f66617ef501de52fed22ea4256fd897d03cfb01cacf7e520f35baf524dfb2dd5753ed1974715b82e268487d63269c6ab6e62c60c9407265c1f4206fa77af281857e5ed084b730520e9fab466a1785b0e58a9c88290b211a7717c549bcc53a89c65d791663caad1c29ee431085c5bca75e47514799b0ba9680a6672cf56e9c2dec9e624d0d424fb0ef609cdf004f1ad417cb092432a8c0f08c7ba72d89fd945bf2814e8053989b42ccdbb047f2a6214b726ecee77a8eac2b64c351240e93b61a3981e7e377f21fc587059eda826c5a8f312ac1f63c1122ee076b69bd
def fr16 : List (List Nat) := blks 32 8 1 0xa1553acab0886919ca158ce523bd491110718eaf0004415501e862cd81afae85
theorem fc16 : eqLL (forsP O 14 16 1 2946766748834847 245 ids) (fs16 ++ fr16) = true := by krfl
theorem fp16 : ForsPart S256.enc4 hf pkB skB P 2946766748834847 245 ids 16 1 fs16 fr16 := fors_part snd P (by decide) _ _ (by omega) (by omega) _ ids_lt _ _ (by decide) _ _ (by decide +kernel) fc16
def fs17 : List (List Nat) := blks 32 8 15 0x2b6fe5ebbab8724fa4a4e9480abec2abdd145c845b83a59516f3d504adaa00f494a4a80fca770fcc0fae176e10b76b71be368ca0094d021c952e66cfe5427d32e6c9ef35100f0aaed50a02fcf28c48ff992d1e1bb0f9eb148032723b00c907dca36d5a3c03aff3447b40014addc31f48dcb3659f95946aa0317d87fd1a422b71a7ebb905544c4143dc773fb7c053660e82cfb93911152ea2ca02084e8ec7743a31d3561f83e47b29ee6243aebc29236829b5e9d34e18f495086035c999a4f03af7fb2ed7b5e1b0e16171ea323013bdd593c0ea1884c38823c3dee06090ea573073b7c040186f6bdf1da0f8d90a95a297d792dab0119a95f9f310cf84c24dd0b82129dc2746395354420dfd9c27a1ad02f168bcb817558f1c44435d0ec2fe440a99066e6017de988b820f7895908d7a848f5c46169632a014a57f4ea501a558f909f20a1934ff6d518a5f96576039d0c1ad8c72e43ee3ea084b739ddd8bcecb1926da2bac6356b44f8fe4dac7a7a0d564bdaa018baca93bc3409112c1b2b1c92cfa723c8984f1784787189a13a627d4675e5b2418134cd459c05c6330fb5edc0e5d9bde9a03d607817807e76761dbbfcf77018eae1afacda9535bd1795b1cc60f0651b7996ba5b469c5c764ead81e5aab4d4554394ab79e34b08c0e66ec69fd14
def fr17 : List (List Nat) := blks 32 8 1 0x2b899f1769700a2cefb7283874f3052abe5d0130240c271debd915a825d1dbd7
theorem fc17 : eqLL (forsP O 14 17 1 2946766748834847 245 ids) (fs17 ++ fr17) = true := by krfl
theorem fp17 : ForsPart S256.enc4 hf pkB skB P 2946766748834847 245 ids 17 1 fs17 fr17 := fors_part snd P (by decide) _ _ (by omega) (by omega) _ ids_lt _ _ (by decide) _ _ (by decide +kernel) fc17
def fs18 : List (List Nat) := blks 32 8 15 0x3e9e363dd7c0d1ad7debad373d97e5cf5fddeaf3b0b140d6786995827d0791123e93b6b4d2380411084ca23e4a78c4c149517a22a3147b7031d09d1aa7c986492b97ff686b53993ae6335650bd0ad25e9685ce8f78cbd25ff481f2b9a10e4e6c4ceee12abd1c69839ad07965d7a680c0c163d8245defb74fee41cba78cf0e214ead6930fa54063a0f289055aaead8d1aed1a1b847a3a1b08c9a2aacaabc6ce77c71f0da7ca2df81b23e5b95e3723c2e6c923241f7e5ea554cda54b12ce75107bdfe65aeccf8a5733e089a6370602dac163b353b3bb2cd660a8943c56646dce730d65ce792ff96c6ab94ad8eb2d796740494a3c9d0fce8328f2cc8c01557440cefc0340508c5bb55fc26feaae28cd2faf5a3e25adc10906e1275d513f7f36582f1f81d86bf18b2da1aca9c1a0b6cdb058366d83def7465dfe3860be30d57f2bcb8a1a2a877c836d3854ee765fee52c8026d7fb8da656640116afb23845a42821064f7f3241a3cfa8c1a67cc94cae68d3d1126d47507e5416cb73142d891b3e17332729ff2729db802dec26f6be741ce9a5570f5d887b999512a72138c1c6d58284e11d4f296e6daa0149aba03ce6a3059ae2640fea960c8ef7fd9441f81bfec614d8756c7282ec11254a3c8f91aba6ca09f0d0930f37becd9f136e5142ae60032
def fr18 : List (List Nat) := blks 32 8 1 0x5cc7938d28216c813262766538b3d864517e7bae5f805f3ea2e9b27f1e0244f2
theorem fc18 : eqLL (forsP O 14 18 1 2946766748834847 245 ids) (fs18 ++ fr18) = true := by krfl
theorem fp18 : ForsPart S256.enc4 hf pkB skB P 2946766748834847 245 ids 18 1 fs18 fr18 := fors_part snd P (by decide) _ _ (by omega) (by omega) _ ids_lt _ _ (by decide) _ _ (by decide +kernel) fc18
def fs19 : List (List Nat) := blks 32 8 15 0x4ed8579b39223452b469dfe7c79bc77ec3b0fc869fe2f04a0b87de8a6b458b6d576790f7af6107b4967b5544e233dfd6f4043793e5e6c6bd99ee5813407b7fd128eb2c81340a4a0b5bf5a361a927bd2e787ac978dd237cc641a6b162f071a0a1a7c3a76aac23e6e08a237aa3d70e5f692ca3e48c21cfc60d095d60a851b1557d79674ad951c37be2a42746e000cb680d52d56fce458c780fd985b7e2296c6e62f27b9a22372e8f942db18c0323d844b96058b7c7fb629c95b26eb8fd0473d9cad4596fbac30edaff7351ed2d8f5428e1454d53107ab81a731fd72a7cef37597ca507a4344e7d7ee8592f014659e273f4879d60a1dbc98724680a698418b04af0074e3966365cff992d662b254bbe89475c9e10085c122db2ce10ca4c506d806cebf35174776a88700ab28a7aae5cc3076fbf1ae64b88b32ca141272225448cdf3f1162d60f3cb9c0ca9dda911ac3c615de154f8e5469f82f1bef1e147b4a2c589993e0385159324ee96ac1391b2321b9b821185a675510b6467fdf6774ee53270ce30dc65aa76f45ac472ee38ce346734704803104c771460e1e2cc8e536b4aa250d9d7a20ac4ebfd2ae0dff2209c01f804864474fd6c4ac8461e46027405fc29326618f0b34db8eca5e1bb4eea1d3ba4147bd65439f6023641d6dd67d8da965
def fr19 : List (List Nat) := blks 32 8 1 0xf86a2c05baf223fd173e2b3f1f19f14144172618d8ccbfd05ddf1700cd2a66fa
theorem fc19 : eqLL (forsP O 14 19 1 2946766748834847 245 ids) (fs19 ++ fr19) = true := by krfl
theorem fp19 : ForsPart S256.enc4 hf pkB skB P 2946766748834847 245 ids 19 1 fs19 fr19 := fors_part snd P (by decide) _ _ (by omega) (by omega) _ ids_lt _ _ (by decide) _ _ (by decide +kernel) fc19
def fs20 : List (List Nat) := blks 32 8 15 0x4316f0b3661c08e80db5b1c057fe5e1b85a06ee25aa58caba4ac07b7dc6a5be9bc70645f910ffd71309cb66ec893757675acf3e851cb91be6dfba3c4e5d9feffec03f174265ae5f0a95cc23d4b56e2eacf3daac0e5af77ef9ab99dec6f250b480e9574f43c13fbd7f291d7d88ea842994f34f8fdf8c508970c682deeac1e91813e70a8ac4d130941cfd1ae9fb607ae451b67579cb3e455e49cd6247eb091be268e5508a96617fe3a54926cda75b477ad2ef2547103590ee6da4c017e2338fd4741791f038cc5df2fe6846a78ce05d6b2819df7dc4a39ca6b9c09fe4efd598af8ba7d9db01c9538d5b9e81c5bcbf1165005acdf0c0298e5d97ad54a0fd0d64f50507c01d85957cac68a04f1d7bb9fcab9254888216141645f06e352a01e092a1bb80727bd3dab7652f661d3df0a838241810f7c69b7ac4308a1ce2247b26e599ae649a158464a9a7bf1f1f0a8e4a8dc6745345f359a94f4891ebbb8f73e607e4661f34ec6d8ea40d8b30b7881ac704112a3fd9ae6954fc67672c6c4dad3765c3e4dd89cc62850ee9b27d207bb888ac3afb998ef40b839ebdf3a27f65a35dae686301828b52d9566525864f5769a4718314ce12e1ff01ed0c399c18e23209a1884062a963e8bea18d16ea26cee3d0cd34375c56fc0c14362d8d0f1fa0b1cc3e982
def fr20 : List (List Nat) := blks 32 8 1 0xde4bfaf0d286da8814771ddac60e5cf865228c61de9c64d77eb63ee3a7851d1b
theorem fc20 : eqLL (forsP O 14 20 1 2946766748834847 245 ids) (fs20 ++ fr20) = true := by krfl
theorem fp20 : ForsPart S256.enc4 hf pkB skB P 2946766748834847 245 ids 20 1 fs20 fr20 := fors_part snd P (by decide) _ _ (by omega) (by omega) _ ids_lt _ _ (by decide) _ _ (by decide +kernel) fc20
def fs21 : List (List Nat) := blks 32 8 15 0x9ae2954d2aac3ddffe389d92eb5bd12f120f0089e4f92d9b013dbf3ad0781266fbee0564504455677545f1a6628f75372a9fa0b0bbaf292610f8a786c64c6f8e9f8c08766ad1e4ac2768c22c5ea742fb74db96795d96883ae80e2f76019258656837127583d10a623bb03143eaf4a345e0758c84a9f1045764ebddf9dc85b29206bb55ba7bd9bed3ff7b3219429fdedbcb32ef247c9ef2c3d9b6342bbd2d06575f8958f221836897106cbb3836a2d62fca47ab0f748e337bf31e1e690e7caea711fee1aeeef172999058356289a062145e0e72b904b6be580897ac09b0e96e9c661cfd2641fbee6dfbd871b7da08666ba893400257f87dabe7303e37b6b5de4643d6354281f0cd9d84141d05be244f7200b371268666adabd755254cb264cdf3526556b8ead5a473f1be354dab4945540135239f5a03b7fde993fca87dbf17ed52f314efe263fadf0bbdc50b72d366fbc488057d1f65157ccb2565cb44f9b1db7ea42626d900014df23ba8f33556ffbec1b4f25eecd6f8242e3b60e90493a3c17af8ae39b4a79d4ce053a501f27a2d9532814408b891e28f164d710443ca930cf0df69d2182a805d521a9927c7f19760c74ebc81dd689f77ce48807d8800003435d68b19a7a1fb276a080862ba0f953b13b33e86a5d6f6cd8915d33e5b742445
def fr21 : List (List Nat) := blks 32 8 1 0x5b0bc6a6a0cc032cc4f6de5b7a9b8bae90800d0bc64dc1231de8770bcd470724
theorem fc21 : eqLL (forsP O 14 21 1 2946766748834847 245 ids) (fs21 ++ fr21) = true := by krfl
theorem fp21 : ForsPart S256.enc4 hf pkB skB P 2946766748834847 245 ids 21 1 fs21 fr21 := fors_part snd P (by decide) _ _ (by omega) (by omega) _ ids_lt _ _ (by decide) _ _ (by decide +kernel) fc21
theorem fa1 : ForsPart S256.enc4 hf pkB skB P 2946766748834847 245 ids 0 2 (fs0 ++ fs1) (fr0 ++ fr1) := fors_app P _ _ _ 0 1 1 _ _ _ _ fp0 fp1
theorem fa2 : ForsPart S256.enc4 hf pkB skB P 2946766748834847 245 ids 0 3 ((fs0 ++ fs1) ++ fs2) ((fr0 ++ fr1) ++ fr2) := fors_app P _ _ _ 0 2 1 _ _ _ _ fa1 fp2
theorem fa3 : ForsPart S256.enc4 hf pkB skB P 2946766748834847 245 ids 0 4 (((fs0 ++ fs1) ++ fs2) ++ fs3) (((fr0 ++ fr1) ++ fr2) ++ fr3) := fors_app P _ _ _ 0 3 1 _ _ _ _ fa2 fp3
theorem fa4 : ForsPart S256.enc4 hf pkB skB P 2946766748834847 245 ids 0 5 ((((fs0 ++ fs1) ++ fs2) ++ fs3) ++ fs4) ((((fr0 ++ fr1) ++ fr2) ++ fr3) ++ fr4) := fors_app P _ _ _ 0 4 1 _ _ _ _ fa3 fp4
theorem fa5 : ForsPart S256.enc4 hf pkB skB P 2946766748834847 245 ids 0 6 (((((fs0 ++ fs1) ++ fs2) ++ fs3) ++ fs4) ++ fs5) (((((fr0 ++ fr1) ++ fr2) ++ fr3) ++ fr4) ++ fr5) := fors_app P _ _ _ 0 5 1 _ _ _ _ fa4 fp5
theorem fa6 : ForsPart S256.enc4 hf pkB skB P 2946766748834847 245 ids 0 7 ((((((fs0 ++ fs1) ++ fs2) ++ fs3) ++ fs4) ++ fs5) ++ fs6) ((((((fr0 ++ fr1) ++ fr2) ++ fr3) ++ fr4) ++ fr5) ++ fr6) := fors_app P _ _ _ 0 6 1 _ _ _ _ fa5 fp6
theorem fa7 : ForsPart S256.enc4 hf pkB skB P 2946766748834847 245 ids 0 8 (((((((fs0 ++ fs1) ++ fs2) ++ fs3) ++ fs4) ++ fs5) ++ fs6) ++ fs7) (((((((fr0 ++ fr1) ++ fr2) ++ fr3) ++ fr4) ++ fr5) ++ fr6) ++ fr7) := fors_app P _ _ _ 0 7 1 _ _ _ _ fa6 fp7
theorem fa8 : ForsPart S256.enc4 hf pkB skB P 2946766748834847 245 ids 0 9 ((((((((fs0 ++ fs1) ++ fs2) ++ fs3) ++ fs4) ++ fs5) ++ fs6) ++ fs7) ++ fs8) ((((((((fr0 ++ fr1) ++ fr2) ++ fr3) ++ fr4) ++ fr5) ++ fr6) ++ fr7) ++ fr8) := fors_app P _ _ _ 0 8 1 _ _ _ _ fa7 fp8
theorem fa9 : ForsPart S256.enc4 hf pkB skB P 2946766748834847 245 ids 0 10 (((((((((fs0 ++ fs1) ++ fs2) ++ fs3) ++ fs4) ++ fs5) ++ fs6) ++ fs7) ++ fs8) ++ fs9) (((((((((fr0 ++ fr1) ++ fr2) ++ fr3) ++ fr4) ++ fr5) ++ fr6) ++ fr7) ++ fr8) ++ fr9) := fors_app P _ _ _ 0 9 1 _ _ _ _ fa8 fp9
theorem fa10 : ForsPart S256.enc4 hf pkB skB P 2946766748834847 245 ids 0 11 ((((((((((fs0 ++ fs1) ++ fs2) ++ fs3) ++ fs4) ++ fs5) ++ fs6) ++ fs7) ++ fs8) ++ fs9) ++ fs10) ((((((((((fr0 ++ fr1) ++ fr2) ++ fr3) ++ fr4) ++ fr5) ++ fr6) ++ fr7) ++ fr8) ++ fr9) ++ fr10) := fors_app P _ _ _ 0 10 1 _ _ _ _ fa9 fp10
theorem fa11 : ForsPart S256.enc4 hf pkB skB P 2946766748834847 245 ids 0 12 (((((((((((fs0 ++ fs1) ++ fs2) ++ fs3) ++ fs4) ++ fs5) ++ fs6) ++ fs7) ++ fs8) ++ fs9) ++ fs10) ++ fs11) (((((((((((fr0 ++ fr1) ++ fr2) ++ fr3) ++ fr4) ++ fr5) ++ fr6) ++ fr7) ++ fr8) ++ fr9) ++ fr10) ++ fr11) := fors_app P _ _ _ 0 11 1 _ _ _ _ fa10 fp11
theorem fa12 : ForsPart S256.enc4 hf pkB skB P 2946766748834847 245 ids 0 13 ((((((((((((fs0 ++ fs1) ++ fs2) ++ fs3) ++ fs4) ++ fs5) ++ fs6) ++ fs7) ++ fs8) ++ fs9) ++ fs10) ++ fs11) ++ fs12) ((((((((((((fr0 ++ fr1) ++ fr2) ++ fr3) ++ fr4) ++ fr5) ++ fr6) ++ fr7) ++ fr8) ++ fr9) ++ fr10) ++ fr11) ++ fr12) := fors_app P _ _ _ 0 12 1 _ _ _ _ fa11 fp12
theorem fa13 : ForsPart S256.enc4 hf pkB skB P 2946766748834847 245 ids 0 14 (((((((((((((fs0 ++ fs1) ++ fs2) ++ fs3) ++ fs4) ++ fs5) ++ fs6) ++ fs7) ++ fs8) ++ fs9) ++ fs10) ++ fs11) ++ fs12) ++ fs13) (((((((((((((fr0 ++ fr1) ++ fr2) ++ fr3) ++ fr4) ++ fr5) ++ fr6) ++ fr7) ++ fr8) ++ fr9) ++ fr10) ++ fr11) ++ fr12) ++ fr13) := fors_app P _ _ _ 0 13 1 _ _ _ _ fa12 fp13
theorem fa14 : ForsPart S256.enc4 hf pkB skB P 2946766748834847 245 ids 0 15 ((((((((((((((fs0 ++ fs1) ++ fs2) ++ fs3) ++ fs4) ++ fs5) ++ fs6) ++ fs7) ++ fs8) ++ fs9) ++ fs10) ++ fs11) ++ fs12) ++ fs13) ++ fs14) ((((((((((((((fr0 ++ fr1) ++ fr2) ++ fr3) ++ fr4) ++ fr5) ++ fr6) ++ fr7) ++ fr8) ++ fr9) ++ fr10) ++ fr11) ++ fr12) ++ fr13) ++ fr14) := fors_app P _ _ _ 0 14 1 _ _ _ _ fa13 fp14
theorem fa15 : ForsPart S256.enc4 hf pkB skB P 2946766748834847 245 ids 0 16 (((((((((((((((fs0 ++ fs1) ++ fs2) ++ fs3) ++ fs4) ++ fs5) ++ fs6) ++ fs7) ++ fs8) ++ fs9) ++ fs10) ++ fs11) ++ fs12) ++ fs13) ++ fs14) ++ fs15) (((((((((((((((fr0 ++ fr1) ++ fr2) ++ fr3) ++ fr4) ++ fr5) ++ fr6) ++ fr7) ++ fr8) ++ fr9) ++ fr10) ++ fr11) ++ fr12) ++ fr13) ++ fr14) ++ fr15) := fors_app P _ _ _ 0 15 1 _ _ _ _ fa14 fp15
theorem fa16 : ForsPart S256.enc4 hf pkB skB P 2946766748834847 245 ids 0 17 ((((((((((((((((fs0 ++ fs1) ++ fs2) ++ fs3) ++ fs4) ++ fs5) ++ fs6) ++ fs7) ++ fs8) ++ fs9) ++ fs10) ++ fs11) ++ fs12) ++ fs13) ++ fs14) ++ fs15) ++ fs16) ((((((((((((((((fr0 ++ fr1) ++ fr2) ++ fr3) ++ fr4) ++ fr5) ++ fr6) ++ fr7) ++ fr8) ++ fr9) ++ fr10) ++ fr11) ++ fr12) ++ fr13) ++ fr14) ++ fr15) ++ fr16) := fors_app P _ _ _ 0 16 1 _ _ _ _ fa15 fp16
theorem fa17 : ForsPart S256.enc4 hf pkB skB P 2946766748834847 245 ids 0 18 (((((((((((((((((fs0 ++ fs1) ++ fs2) ++ fs3) ++ fs4) ++ fs5) ++ fs6) ++ fs7) ++ fs8) ++ fs9) ++ fs10) ++ fs11) ++ fs12) ++ fs13) ++ fs14) ++ fs15) ++ fs16) ++ fs17) (((((((((((((((((fr0 ++ fr1) ++ fr2) ++ fr3) ++ fr4) ++ fr5) ++ fr6) ++ fr7) ++ fr8) ++ fr9) ++ fr10) ++ fr11) ++ fr12) ++ fr13) ++ fr14) ++ fr15) ++ fr16) ++ fr17) := fors_app P _ _ _ 0 17 1 _ _ _ _ fa16 fp17
theorem fa18 : ForsPart S256.enc4 hf pkB skB P 2946766748834847 245 ids 0 19 ((((((((((((((((((fs0 ++ fs1) ++ fs2) ++ fs3) ++ fs4) ++ fs5) ++ fs6) ++ fs7) ++ fs8) ++ fs9) ++ fs10) ++ fs11) ++ fs12) ++ fs13) ++ fs14) ++ fs15) ++ fs16) ++ fs17) ++ fs18) ((((((((((((((((((fr0 ++ fr1) ++ fr2) ++ fr3) ++ fr4) ++ fr5) ++ fr6) ++ fr7) ++ fr8) ++ fr9) ++ fr10) ++ fr11) ++ fr12) ++ fr13) ++ fr14) ++ fr15) ++ fr16) ++ fr17) ++ fr18) := fors_app P _ _ _ 0 18 1 _ _ _ _ fa17 fp18
theorem fa19 : ForsPart S256.enc4 hf pkB skB P 2946766748834847 245 ids 0 20 (((((((((((((((((((fs0 ++ fs1) ++ fs2) ++ fs3) ++ fs4) ++ fs5) ++ fs6) ++ fs7) ++ fs8) ++ fs9) ++ fs10) ++ fs11) ++ fs12) ++ fs13) ++ fs14) ++ fs15) ++ fs16) ++ fs17) ++ fs18) ++ fs19) (((((((((((((((((((fr0 ++ fr1) ++ fr2) ++ fr3) ++ fr4) ++ fr5) ++ fr6) ++ fr7) ++ fr8) ++ fr9) ++ fr10) ++ fr11) ++ fr12) ++ fr13) ++ fr14) ++ fr15) ++ fr16) ++ fr17) ++ fr18) ++ fr19) := fors_app P _ _ _ 0 19 1 _ _ _ _ fa18 fp19
theorem fa20 : ForsPart S256.enc4 hf pkB skB P 2946766748834847 245 ids 0 21 ((((((((((((((((((((fs0 ++ fs1) ++ fs2) ++ fs3) ++ fs4) ++ fs5) ++ fs6) ++ fs7) ++ fs8) ++ fs9) ++ fs10) ++ fs11) ++ fs12) ++ fs13) ++ fs14) ++ fs15) ++ fs16) ++ fs17) ++ fs18) ++ fs19) ++ fs20) ((((((((((((((((((((fr0 ++ fr1) ++ fr2) ++ fr3) ++ fr4) ++ fr5) ++ fr6) ++ fr7) ++ fr8) ++ fr9) ++ fr10) ++ fr11) ++ fr12) ++ fr13) ++ fr14) ++ fr15) ++ fr16) ++ fr17) ++ fr18) ++ fr19) ++ fr20) := fors_app P _ _ _ 0 20 1 _ _ _ _ fa19 fp20
theorem fa21 : ForsPart S256.enc4 hf pkB skB P 2946766748834847 245 ids 0 22 (((((((((((((((((((((fs0 ++ fs1) ++ fs2) ++ fs3) ++ fs4) ++ fs5) ++ fs6) ++ fs7) ++ fs8) ++ fs9) ++ fs10) ++ fs11) ++ fs12) ++ fs13) ++ fs14) ++ fs15) ++ fs16) ++ fs17) ++ fs18) ++ fs19) ++ fs20) ++ fs21) (((((((((((((((((((((fr0 ++ fr1) ++ fr2) ++ fr3) ++ fr4) ++ fr5) ++ fr6) ++ fr7) ++ fr8) ++ fr9) ++ fr10) ++ fr11) ++ fr12) ++ fr13) ++ fr14) ++ fr15) ++ fr16) ++ fr17) ++ fr18) ++ fr19) ++ fr20) ++ fr21) := fors_app P _ _ _ 0 21 1 _ _ _ _ fa20 fp21
def m0 : List Nat := [0x2e052486, 0x48d3fb82, 0x56a0bd0, 0xd3722b2d, 0xc1815ef7, 0xf4300007, 0x52f5ea1a, 0x6a040df7]
theorem fk : forsPk P hf skB pkB 2946766748834847 245 = S256.enc4 m0 := fors_pk snd P (by decide) _ _ (by omega) (by omega) ids _ _ fa21 (by decide +kernel) (by decide +kernel) _ (by decide +kernel)

/-! ## Hypertree -/


end Kat.Sha2_256s
