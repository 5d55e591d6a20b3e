import Verif.Kat.Shake_256s.P0
/-!
# Known answer for shake_256s: parts of the signature, checked by the kernel

Written by tools/katgen.py from testvector.h.
-/
set_option Elab.async false
noncomputable section
namespace Kat.Shake_256s
open Spec Spec.Slh Model

def fs11 : List (List Nat) := blks 64 4 15 0x5440ce1602cd7acfa694ec52b60307bb2e15f8b2ad19f9f85291bd69c0302427ef372e690268a32dbe8260b6f88320f5ccd2a7327bedecba32e5ebe80c2d0eeacdda11bf567384c772d94d37af1e7d4c11b3be2d3f6bc218409e03db0e1c27c17be8313830cbb7c290e64a551f5db186baffe29ffccf4d59c8b7d1dfc5e36c9bf7083a07dc370cea8d428a657864ec72fb332ed458f3c45e1b6f37639cfb35d35d9b83c2f49c53db1046d936d1edddef2828f1ea28fcb0501770992c88a7c1a7fdeda36473556089018e60ddc143a08cae1ddc47cf0072692df2391ec2c6e3ad68fcad694d78d2e61abd62bc04415a43c0e0d829e01c23d5acc865ba78a59cff4d9123e9166cf15116067e8966ec94b5a48a799fb72909d582c3855abd142e2d7e7c39e1579ae2d204a8327b5f4a8f51cd7cc9e21d1c5c1f20cc6d7fbd4011cccf1ccb394477ce63e9fa904168295c16521dbf6322ca852fba8398e7826ec80713848d09cf46bc6f7e02717d9f6bb82f638fc04f84f3b912fbb0e902fe94e77fbcf1439c8ec0f856387052c755849ced2e71d3104561936dc6cc8af705e10214d87c6a656b4013a96271ae1860823112fca1fd951add6165da599e0844eda18edfd9977956452ac2b104a58527a90c909d14124960ccc55cff69c583455bcbfd
def fr11 : List (List Nat) := blks 64 4 1 0x1a73072aad3d8eddf2b7568fb5efc387a87757b17728b5a3fe12cf1dcc64589
theorem fc11 : eqLL (forsP O 14 11 1 129844535052028 143 ids) (fs11 ++ fr11) = true := by krfl
theorem fp11 : ForsPart K.enc8 hf pkB skB P 129844535052028 143 ids 11 1 fs11 fr11 := fors_part snd P (by decide) _ _ (by omega) (by omega) _ ids_lt _ _ (by decide) _ _ (by decide +kernel) fc11
def fs12 : List (List Nat) := blks 64 4 15 0x3b1c7d393eff3d0463d8ad3a65b0928075b854ff3361473b82f4f0e833e03b58f3f3c91f6ec6fd8fb23d72600514d7711b4a7264d685c90869046049df1fdcfc4023f39fbbe0446c14edbee18770423548bff0c7014540188a4da784d222e17c0a94e8ed7dd8340dbff6f24a735585dacf4ed0e4321a58aa21548dbaa9988253a97ec1003446e13de14fd3679ee138f41bfdcc30013fa6ec9b8314df26d43f51a039413edab4a6058b8b552433a3b853f216c8d3561ec1a78b79cf498f2c22ee8fe459565fdb9d124604e884baed0f73b5996d5919ffb1691ac1cad5e8210217610d5690df34900657d5a4e5995ed94ada7e5a72f11a30d75418b4074b6385cd31c538ff42c7290123604828e7f1733f5a72a059d9e9ef9741f92d13735f601c97a011816dda2a52839571ad5231f082bf8c9ebbbf191476354d2ba768a857e7d097640e194f0f008c6110a3eb465218a091b46ab5cf78e5b626c82e6913b2f1484821b266205fada6e046b3009f80eff1255947dfa623710166769b8bfe2b48e064a1bbaee0787e472332b31a75d3f5b4cd7cc65a387844b4d67b734698178774f01af7556f6f5064042108378af1c27fb65529993ee2641f80ff9dcbc7c869fef723d35b1752e29ffa878d6d2f0f4e751664857e017ff032b1d7dcef917bc4
def fr12 : List (List Nat) := blks 64 4 1 0xa9ae16d5d0a18fbaf18bbf1cd70a8a5719dbabbfc9a718a16edcb378b17b5557
theorem fc12 : eqLL (forsP O 14 12 1 129844535052028 143 ids) (fs12 ++ fr12) = true := by krfl
theorem fp12 : ForsPart K.enc8 hf pkB skB P 129844535052028 143 ids 12 1 fs12 fr12 := fors_part snd P (by decide) _ _ (by omega) (by omega) _ ids_lt _ _ (by decide) _ _ (by decide +kernel) fc12
def fs13 : List (List Nat) := blks 64 4 15 0x6c39a2307312c8fcdd1d62ad041ab6479dd05b6ec62ca31cb4d7fe0c9d33fbe0843139ca73d643d46fadeeff5ff3323fdee32fd7a87f8eac087c5cc7cd57386fd048bb2cc92848171a4e695c4a8a0ae05d6aa5fe8860979568bdd6140824e1bde7132d9cf72dbe15e9f7750a4b8d731aa211b0bf64a48edf5ed500e6e051e60610d601ac82312c7c25400e958cc15a4d7c9c05dc153fa72e3b199e6efc81819e9d4fbd13001d7fded2cdce5ccdac37888aacf68e489ae533178d46e131b37e86868ff81566b278ce037f265040a706330f2a5c6356636265350e5ced94d0ee99bd0788171e9bb6763562ae312d27f074c223a619c6dd3d7a96d0dc38aa30b4ac3fd01a84cf700d5e31582166896074c5882c20199f75eba7f9521351b07823eca044ef29c451563e95149b0ecf28d01d5760ddedbf0d2be694b0623cde7f54158ce4a65cce75acad9b7875b65b9b505ee8afbdf90d1d615c7dd7bbfaaf8b0ac42a2231a108cf9bed31812d7e5ff59a4ab399f349f0feaebbe6beeba1d2d2a4ce1c531d9f3d22ea2f5b532ae239cde89f705966c457eb72cd45da717fe5b81965df2bf06ff138b149b53f2cf7e1b5015089c91e4bf0c86d5c5773336d8ff6d29f502fc1ebcbc8e81baafaa0a28fc08874957170aa951bae62868f62023f711aa3
def fr13 : List (List Nat) := blks 64 4 1 0x146f66c72816fb401aa9c0e3bbe56ddfb40a3aa62712990d3742b8c7168134bd
theorem fc13 : eqLL (forsP O 14 13 1 129844535052028 143 ids) (fs13 ++ fr13) = true := by krfl
theorem fp13 : ForsPart K.enc8 hf pkB skB P 129844535052028 143 ids 13 1 fs13 fr13 := fors_part snd P (by decide) _ _ (by omega) (by omega) _ ids_lt _ _ (by decide) _ _ (by decide +kernel) fc13
def fs14 : List (List Nat) := blks 64 4 15 0xbbc6cc83fc016b27670a8dd7c769cdadf50927c6c6c943e57120677c7f3a05b3103ecbaf81a073166f6a224cfbc4eeafbdec50dc3f0b61fde30a7061c906a8b3f6455bc5290a22540316dcbe2a30f998edfac5f338951a91e385c67346581f8769f2129292de587f6de880ec0f46e178d929800090ae920b313d6286b28c83418db9b92866a1471f5159af5b0923e86b55a1c9f8c175113b0f952bd8925dfddd2f0c179cd3fc94b5fe34f404f3f2996a51d1de39db5ecec66b242076a052e0470a9a402e8b2cee8da499f02b80b4275db54d19e504bc50afb6557bcb0575a48cd02f4d3a18064b0e068ed0ce49d58f21439657e0f77976d2a7416f371d912ef8867867717b59c76eea4e3efe2020411ff14abc12bd1ac5ac542e5837f43aa117f6cbb3f73dd96144da13e76746c958ff8d102c6e609481d8309d28f9e460b9d32ddc18b764f83e3b8e8fd7dbf7184ca5964befaac846f15bf5ab736bc67c6c1317373dfc828443a98268af60bbb1874394d351d39b6f9f59c888dd376685c300874e576eead6c56fff77ae5b261e78b65992ccbb0b0fdc5965d6d4aaabdf2f6c9d48b0309a67fc7a65f5a52c5e496c095fb5574009c2009c1354acac27eff0a18bb66d00a7bee00e2fd67a077aa409874800b6370d3cc82f5b2f5aef7e03ff62
def fr14 : List (List Nat) := blks 64 4 1 0x47a7abecc179bd020dc32c7ab923d0adc68bc9e1a3b3c7cf78e3de8cfc1732ae
theorem fc14 : eqLL (forsP O 14 14 1 129844535052028 143 ids) (fs14 ++ fr14) = true := by krfl
theorem fp14 : ForsPart K.enc8 hf pkB skB P 129844535052028 143 ids 14 1 fs14 fr14 := fors_part snd P (by decide) _ _ (by omega) (by omega) _ ids_lt _ _ (by decide) _ _ (by decide +kernel) fc14
def fs15 : List (List Nat) := blks 64 4 15 0x9225c094887cfc1419ba23e4bc8343b2a7aa617475269d2a69ed223b2bd9eb901d8e145698d7e8a447c4116f45955f36f4a1753fd56056ab8968f0dff52bdcd9e135624f3061a0262d7f02c40aaef2e60d5cc69a5bc4034e22e3eb74b53194a5a41200c30349d31829e232d7a41d780d40aaede7f27178007d24c5386936e3d4676733e8fda65d8e35502c75b756360b9bc478c46d7d72dd97733aacc3d07ae198adf98f1a38420fa2cc6d3f69211568cbafef387c8966e9ec9087f31c2dedeb0e718f8fa15b1b153c5bc58c85c6497383da28db00c3f0d62da654cd02a46440b246caee98fa44fb36da52a3c920301c4858023135ace0fac1d469406db3ab4e87e8f7fa5e8a960f15e6b2a49bdcf574447b36f92d98609296d574a41844b238ddc1673f27035ac0ce4242ea47552057f79bb66aed73b4f00a3133b56be193aac38d6868705d89ef7070118b29be38bc9d88e0e328d65cd97436e38913c7fefcffa99e9d7b720ed7f6740b2bab46c056978acc34a0e53454b31850e1bfa4af86fe60251cabaf2c476662de954668a7136cf1f1bb73bf012e50f5474702aaf3e48fbb732b38cc38e6cf82c2050b2571d159b2a999c41a90248926f157d9b920d0c1f130dd095489db377880226ef2f918d55bf79a660f5625a1089f896752f05c
def fr15 : List (List Nat) := blks 64 4 1 0xab332498e03106bf7848aaf4a801a26f446b4878d165780f3311900fecd46f0d
theorem fc15 : eqLL (forsP O 14 15 1 129844535052028 143 ids) (fs15 ++ fr15) = true := by krfl
theorem fp15 : ForsPart K.enc8 hf pkB skB P 129844535052028 143 ids 15 1 fs15 fr15 := fors_part snd P (by decide) _ _ (by omega) (by omega) _ ids_lt _ _ (by decide) _ _ (by decide +kernel) fc15
def fs16 : List (List Nat) := blks 64 4 15 0x90de50a3e1ad30989dae39aef9e07026699e0724daef409c935071fac8579c134646173bd536e155efc7a3a5a33fe7d506b68aa743c563708b460855accce010671744535b5bae5745f090e67b8db4ad7ae82116b635be1150cdac6ec1e4e322f45933627b39c819f507a2b4fcfa8148367a41538009877a87e832f7fabd89e06a315bc64ad55d7f21af32813c8ea08cf9de2112ed69b26d36ea58048231945f5fc0cebffd2cebb0cc59499e9338617e7d24099a742dec87bb26949132806e81a08ef369b0172390d6ad891d3e0502e258011a0b87d945a3f09ca68a8551b3ef1ab50f05772b7e2e55393d7d3098f6363983e02f294e627256b92f35df25251fde6499fec1732def8f92282a4b55d9edb69bdab8850b7250cfbc79e16e13aa69f4b904612b49bc599212095c2024e825782ad1783d0b5bc0db5472770114a412fec88886e821175ee77b280ff09b58ff526b802c495378bafcb0d5db5e337307dd0550c8b712f1cfdff1633491bf9c29dc8028df6535116546c142525c1db6ff02338a36411ee029fcfe7c462a38e8be5a55321bdddf001cacc4e1ff7b78eb076320e5a6e5174699369391c333b991b55d5b75111b66360e3b9c9a7b2d700bc7bc2b83e8267445e9e03d18a1e44f77e77ee57d0ccf781db29209b4586ada9a65
def fr16 : List (List Nat) := blks 64 4 1 0xcfb0ea8f586812a79ed75d3046ebdb24bbcba5b7a834f81613b826690b1ee2ae
theorem fc16 : eqLL (forsP O 14 16 1 129844535052028 143 ids) (fs16 ++ fr16) = true := by krfl
theorem fp16 : ForsPart K.enc8 hf pkB skB P 129844535052028 143 ids 16 1 fs16 fr16 := fors_part snd P (by decide) _ _ (by omega) (by omega) _ ids_lt _ _ (by decide) _ _ (by decide +kernel) fc16
def fs17 : List (List Nat) := blks 64 4 15 0x8d79fa6c1e9acbe8cacf1f0670f181343bb9d430183ee8a7e028844aea1c3fa7f85418bf1a459911b136e49c79490e142fa2e50c89475c80c2100103b1ebf6d548f86e71648dcc72a4f78fbcf688c81480e61a3d7c732535784be4510ffa4467a8538207f7f8b2813a378d06eb741bfe0789515fd4c35b4ea08a08c01ea6f4bc64b768f3da56e1fc197eae1c225789160ceeb7c1ecfd2d9fdce98407d81970515d9dbc248a1bf42eb7af0bf8a4bbb0390c498526c312c483251b46dba0eba45ea254a1c1f0b584a258c87925d50ebbb6a539226e2b50289ca631447531d487bf43ad659e6382336314f544c0f3c497e40fd0b547967e3a67c717decfcaa8c8925417fe91ae004a110fd7b4527f0329c02699c703ecb3d52c595826eae2fc310e4edb0425ecbbd8892113c330b53f09e31774e2469992c00d8a16d08e6c74d9e5f3184c8947b334f0c5f5a837807b84e16d09a9adc78baf98a6a3f9f7739043de00afc041999d257b8c2923a3ed5e818e17166c58c4d52b83e1e52b5a0377a360d6144e1b5cb2158bf92d6f7938ea234804dcaf6d5309a6161ff4e5d7aa32d0567fe6035e7a1735fffed0e326a93677348378833102cb569958d595b18f4b05ed7079f485fe9085ef02619f6f66b3b38ea2cec1e3b85091d9db291b7184768eb8
def fr17 : List (List Nat) := blks 64 4 1 0x9ec21f82c17a2b040fcbb27cbd7829d99007383521f95638dc75125576efaa5a
theorem fc17 : eqLL (forsP O 14 17 1 129844535052028 143 ids) (fs17 ++ fr17) = true := by krfl
theorem fp17 : ForsPart K.enc8 hf pkB skB P 129844535052028 143 ids 17 1 fs17 fr17 := fors_part snd P (by decide) _ _ (by omega) (by omega) _ ids_lt _ _ (by decide) _ _ (by decide +kernel) fc17
def fs18 : List (List Nat) := blks 64 4 15 0xdb548a53be7e888c7c43f841540f42bdc2cf6326a5fe5324786c7a9503e3d7bee5766df6282d18d2ac20c93ee0cf1bf354390c6c508e7dfab7e9dd300d2bdf28e09622a10fcb76be31d3bc16c48646964aee8aa85032dbf117b25507e3346612b0fa1236c3bb11dfd4c4875f737ad62f3ed85e4cf0b97d254bf77041daa4d363a52c7110d860dcc7be5a47bb9666c206ef2a28679e89b57080be9df518f475bb275e75d791c50c06af9c6d33bc12f140cbd3e0fdbf4d08555975f76b9f2e2748198479631ab96d5e5d456d772f5aad18fdcbf86f84ca050ac7472ac99d3213cf2debe883b21a3a407afebfb9fff20f2aa1f60f36010d77970e62fbbbeeefcdbb3da8530a19f7c965b24b24b9c0c128eaabff04d4ef0d09a2d3d4da55000e7fb5c51195eb9e3b59fc4b677cfb4f641fe493ced0b1ecfed2e4e34a1a24e50dcbc2b1fb93331bb766c5bb9f6d91319ea9d8c5dca11fe5b766976ff79516cee3410619b8b5371f8625674f2eee24b23e13a23a1e1ca781d36d769e5e076fe4d7dedaea908ec919ec464cb65aca090ee28f3f449f14b759db875fee18a9e344bde74c4ed1d3afa1127483dd436af86cafb38622ce5bea01ccd91938f90cd13771ddf78be3e5f3ea5558a108717e3276a4923e04708ec357b4f396d92262a44184556d
def fr18 : List (List Nat) := blks 64 4 1 0x6a7343f40124f6ccc16b2d5a5b063096c9efbae0c45ecacf4f5dcd23d715b8f
theorem fc18 : eqLL (forsP O 14 18 1 129844535052028 143 ids) (fs18 ++ fr18) = true := by krfl
theorem fp18 : ForsPart K.enc8 hf pkB skB P 129844535052028 143 ids 18 1 fs18 fr18 := fors_part snd P (by decide) _ _ (by omega) (by omega) _ ids_lt _ _ (by decide) _ _ (by decide +kernel) fc18
def fs19 : List (List Nat) := blks 64 4 15 0x1b97cbb76b99b90655afc0d97466eb256bead7e7e021c14ce4a8a245914f2cd0fafbb9147f40f0b2811e381bb2e02bf884c0dcce7df1ecd25c70382e40aa5a7bae793cac8f852b23c741e0a6b382c481a6e8256799e2f8099aced259d8774c86540db844d5111e6568d64e8eaa299f685c91a41ede2496a7930600722935908c1d57ec54b5927cd74215ac06f7d92139873981f7f2f3035bc788f4e2a1725bdf4d59276394d664769c1cadbc564929d67c8f11a0c2883ff6b371eca80edcf170e1d5a5678841c3b873e017705c1e7eee29adabcc769738a1ea7f89b77968b6b5f7642d09afabe07cb0a3483845a9eac4c4898314656b122381cd83d3710f0a83b7476f870e5a43a8a97cfd6719338399204edc6b8be25dba291c8b3af8c7577e11370c2e86b140d2e270d9c49d692969910c842a7973dace75d5a0c0b92cd4be262cf56285c8514f5ad038d06a3943470ed56d1201ae7a505aab9d3f660589620d74e6bd0527785ccfac65784a268a2e463450da6d77a9f40e34147d2ba027c2bb980248e09dc0549ab2a9e460b40d7ee151de359d8e72685cac01268b36b78af88390cf63dab942490c33415df4f11c9ba2eec621784b615820cd532a4564f578044d5aa2569736dd9cd35804d51e08a0f48e43a4777affe519ed77f3f8f434
def fr19 : List (List Nat) := blks 64 4 1 0x15fb15b1aecff55827f20ace396656678f7095ded3cf8f65c43cfa6ceb21535d
theorem fc19 : eqLL (forsP O 14 19 1 129844535052028 143 ids) (fs19 ++ fr19) = true := by krfl
theorem fp19 : ForsPart K.enc8 hf pkB skB P 129844535052028 143 ids 19 1 fs19 fr19 := fors_part snd P (by decide) _ _ (by omega) (by omega) _ ids_lt _ _ (by decide) _ _ (by decide +kernel) fc19
def fs20 : List (List Nat) := blks 64 4 15 0x2d01584fc9eac5e8bb128a9cff7d5863175d0e49475632fbdefaaba1f78cd04b037f636c054e043fa4267cbf77374b7a60e081c593ccbb28b673780d4b86a526401c50fbffac83b1681e183cb847da2e51f6f49fb2648be93fd1de0fff0c5e91d9e8ea1e885126d3f0828a63e149e5f29f2bf661cc49c4a0c39a5e323f2ac54619b9eb42048d3417b0d8c9217214eaa897508665f57266f3d333c68b9690841e2e818ac5bf0615e5bb19b81d98fa1cd2f006fccbc8c5412ca8171a1ebddb203f09b64d499c0c632e89b77a7d38c25245b777922d7fa1bbdf57a142e5d9a5550640ff4d8f49d712d2a293d97ebf8885202dffca35242c58229bffe539637b49270b870d28a698e9301c38fb629876ee20678dbb8ca66745d9b13565a2c9d55621120bdc0d889abc3c62e46ea20d4cd5eb7849a46f0e71697a79f173f2ebfda1d9de71a37db974104b833a2d0b6ae75bfc576169b27cd44e0c621594466298160a1837941b2da1014de0b32d5870625400749b929723662048a611c22a59b5bd7b40b742c387d4273dc4a66255eb967bac0feb44c0ea52fd89d60e3f92687737a5822436b322a70e80002974b6f57fbc4aba389339dae80e163d4aebade384fbbb44e2c45b1353de2a5ebe850ee1e61cbec8de646e205fe9fc90d16ff084c9108
def fr20 : List (List Nat) := blks 64 4 1 0x1bb91bd63d5e59b4cda189f906e7ec6d53a9c147dae2fa97c7a12c2d75834762
theorem fc20 : eqLL (forsP O 14 20 1 129844535052028 143 ids) (fs20 ++ fr20) = true := by krfl
theorem fp20 : ForsPart K.enc8 hf pkB skB P 129844535052028 143 ids 20 1 fs20 fr20 := fors_part snd P (by decide) _ _ (by omega) (by omega) _ ids_lt _ _ (by decide) _ _ (by decide +kernel) fc20
def fs21 : List (List Nat) := blks 64 4 15 0x778bcaee93a126c95e0c884392b500b8fd98dfa9fba09e99518685d16e70c7a639aa5bd0aa2c19a6abff0f5d87be2e147fcc54f1c54fce698ed3c237df14855e324f0ae0c7dbf364ae4b7239cdde6bbb1381088f65b8948cf7e76e2f2df0a086d264061196462f5d47ee2975cfe80814ea9ab87d1b6196e3e9ae11e9494218b0034518c47d54500eca9819607a796deef011dd3c494941254b97ffd9f9f8dea377805870e73365c7246816fe4ccce4819c68ff24bd4641bffafd9c101706cafca881cfd2469d11c414436a467d92e8b86c0deed3225181020a13b11c1a18c8bd6434efd83348a3a564c611fe858090e47d441c04530166b779e4e70807638fc522004cf4278f6c42e80f85c8df62df559aefff42f02aa45001856f6c6a59c1117678820ea33b1dcdd9fe693d195b8106a926a4cf92b2829e8dcb3a11bcb821246162fb5a8a5044b41361f729e4e18b2103ad1c8ee73642820e1208b144d56224a748f1e34d6bb389a02d087622831cc6208a5b14aa48dcab75a0d08129f225b6d5cabb2b28fcc3915577f0bcf13af72976786a0ff35718a912b75f16d0481a96d4c8c2f1d0960fcb57e7dfe863b510ec36630c9f2cb4672bd5a218e152e7a4453503a5eb7291ffe8e8d63c073a50adb955f2ede3e792979618e48ebb78f8e8f6
def fr21 : List (List Nat) := blks 64 4 1 0xa43da00c721c2a068c9ee36d16d89df4a2745417bb7cee7779936e6867d2c565
theorem fc21 : eqLL (forsP O 14 21 1 129844535052028 143 ids) (fs21 ++ fr21) = true := by krfl
theorem fp21 : ForsPart K.enc8 hf pkB skB P 129844535052028 143 ids 21 1 fs21 fr21 := fors_part snd P (by decide) _ _ (by omega) (by omega) _ ids_lt _ _ (by decide) _ _ (by decide +kernel) fc21
theorem fa1 : ForsPart K.enc8 hf pkB skB P 129844535052028 143 ids 0 2 (fs0 ++ fs1) (fr0 ++ fr1) := fors_app P _ _ _ 0 1 1 _ _ _ _ fp0 fp1
theorem fa2 : ForsPart K.enc8 hf pkB skB P 129844535052028 143 ids 0 3 ((fs0 ++ fs1) ++ fs2) ((fr0 ++ fr1) ++ fr2) := fors_app P _ _ _ 0 2 1 _ _ _ _ fa1 fp2
theorem fa3 : ForsPart K.enc8 hf pkB skB P 129844535052028 143 ids 0 4 (((fs0 ++ fs1) ++ fs2) ++ fs3) (((fr0 ++ fr1) ++ fr2) ++ fr3) := fors_app P _ _ _ 0 3 1 _ _ _ _ fa2 fp3
theorem fa4 : ForsPart K.enc8 hf pkB skB P 129844535052028 143 ids 0 5 ((((fs0 ++ fs1) ++ fs2) ++ fs3) ++ fs4) ((((fr0 ++ fr1) ++ fr2) ++ fr3) ++ fr4) := fors_app P _ _ _ 0 4 1 _ _ _ _ fa3 fp4
theorem fa5 : ForsPart K.enc8 hf pkB skB P 129844535052028 143 ids 0 6 (((((fs0 ++ fs1) ++ fs2) ++ fs3) ++ fs4) ++ fs5) (((((fr0 ++ fr1) ++ fr2) ++ fr3) ++ fr4) ++ fr5) := fors_app P _ _ _ 0 5 1 _ _ _ _ fa4 fp5
theorem fa6 : ForsPart K.enc8 hf pkB skB P 129844535052028 143 ids 0 7 ((((((fs0 ++ fs1) ++ fs2) ++ fs3) ++ fs4) ++ fs5) ++ fs6) ((((((fr0 ++ fr1) ++ fr2) ++ fr3) ++ fr4) ++ fr5) ++ fr6) := fors_app P _ _ _ 0 6 1 _ _ _ _ fa5 fp6
theorem fa7 : ForsPart K.enc8 hf pkB skB P 129844535052028 143 ids 0 8 (((((((fs0 ++ fs1) ++ fs2) ++ fs3) ++ fs4) ++ fs5) ++ fs6) ++ fs7) (((((((fr0 ++ fr1) ++ fr2) ++ fr3) ++ fr4) ++ fr5) ++ fr6) ++ fr7) := fors_app P _ _ _ 0 7 1 _ _ _ _ fa6 fp7
theorem fa8 : ForsPart K.enc8 hf pkB skB P 129844535052028 143 ids 0 9 ((((((((fs0 ++ fs1) ++ fs2) ++ fs3) ++ fs4) ++ fs5) ++ fs6) ++ fs7) ++ fs8) ((((((((fr0 ++ fr1) ++ fr2) ++ fr3) ++ fr4) ++ fr5) ++ fr6) ++ fr7) ++ fr8) := fors_app P _ _ _ 0 8 1 _ _ _ _ fa7 fp8
theorem fa9 : ForsPart K.enc8 hf pkB skB P 129844535052028 143 ids 0 10 (((((((((fs0 ++ fs1) ++ fs2) ++ fs3) ++ fs4) ++ fs5) ++ fs6) ++ fs7) ++ fs8) ++ fs9) (((((((((fr0 ++ fr1) ++ fr2) ++ fr3) ++ fr4) ++ fr5) ++ fr6) ++ fr7) ++ fr8) ++ fr9) := fors_app P _ _ _ 0 9 1 _ _ _ _ fa8 fp9
theorem fa10 : ForsPart K.enc8 hf pkB skB P 129844535052028 143 ids 0 11 ((((((((((fs0 ++ fs1) ++ fs2) ++ fs3) ++ fs4) ++ fs5) ++ fs6) ++ fs7) ++ fs8) ++ fs9) ++ fs10) ((((((((((fr0 ++ fr1) ++ fr2) ++ fr3) ++ fr4) ++ fr5) ++ fr6) ++ fr7) ++ fr8) ++ fr9) ++ fr10) := fors_app P _ _ _ 0 10 1 _ _ _ _ fa9 fp10
theorem fa11 : ForsPart K.enc8 hf pkB skB P 129844535052028 143 ids 0 12 (((((((((((fs0 ++ fs1) ++ fs2) ++ fs3) ++ fs4) ++ fs5) ++ fs6) ++ fs7) ++ fs8) ++ fs9) ++ fs10) ++ fs11) (((((((((((fr0 ++ fr1) ++ fr2) ++ fr3) ++ fr4) ++ fr5) ++ fr6) ++ fr7) ++ fr8) ++ fr9) ++ fr10) ++ fr11) := fors_app P _ _ _ 0 11 1 _ _ _ _ fa10 fp11
theorem fa12 : ForsPart K.enc8 hf pkB skB P 129844535052028 143 ids 0 13 ((((((((((((fs0 ++ fs1) ++ fs2) ++ fs3) ++ fs4) ++ fs5) ++ fs6) ++ fs7) ++ fs8) ++ fs9) ++ fs10) ++ fs11) ++ fs12) ((((((((((((fr0 ++ fr1) ++ fr2) ++ fr3) ++ fr4) ++ fr5) ++ fr6) ++ fr7) ++ fr8) ++ fr9) ++ fr10) ++ fr11) ++ fr12) := fors_app P _ _ _ 0 12 1 _ _ _ _ fa11 fp12
theorem fa13 : ForsPart K.enc8 hf pkB skB P 129844535052028 143 ids 0 14 (((((((((((((fs0 ++ fs1) ++ fs2) ++ fs3) ++ fs4) ++ fs5) ++ fs6) ++ fs7) ++ fs8) ++ fs9) ++ fs10) ++ fs11) ++ fs12) ++ fs13) (((((((((((((fr0 ++ fr1) ++ fr2) ++ fr3) ++ fr4) ++ fr5) ++ fr6) ++ fr7) ++ fr8) ++ fr9) ++ fr10) ++ fr11) ++ fr12) ++ fr13) := fors_app P _ _ _ 0 13 1 _ _ _ _ fa12 fp13
theorem fa14 : ForsPart K.enc8 hf pkB skB P 129844535052028 143 ids 0 15 ((((((((((((((fs0 ++ fs1) ++ fs2) ++ fs3) ++ fs4) ++ fs5) ++ fs6) ++ fs7) ++ fs8) ++ fs9) ++ fs10) ++ fs11) ++ fs12) ++ fs13) ++ fs14) ((((((((((((((fr0 ++ fr1) ++ fr2) ++ fr3) ++ fr4) ++ fr5) ++ fr6) ++ fr7) ++ fr8) ++ fr9) ++ fr10) ++ fr11) ++ fr12) ++ fr13) ++ fr14) := fors_app P _ _ _ 0 14 1 _ _ _ _ fa13 fp14
theorem fa15 : ForsPart K.enc8 hf pkB skB P 129844535052028 143 ids 0 16 (((((((((((((((fs0 ++ fs1) ++ fs2) ++ fs3) ++ fs4) ++ fs5) ++ fs6) ++ fs7) ++ fs8) ++ fs9) ++ fs10) ++ fs11) ++ fs12) ++ fs13) ++ fs14) ++ fs15) (((((((((((((((fr0 ++ fr1) ++ fr2) ++ fr3) ++ fr4) ++ fr5) ++ fr6) ++ fr7) ++ fr8) ++ fr9) ++ fr10) ++ fr11) ++ fr12) ++ fr13) ++ fr14) ++ fr15) := fors_app P _ _ _ 0 15 1 _ _ _ _ fa14 fp15
theorem fa16 : ForsPart K.enc8 hf pkB skB P 129844535052028 143 ids 0 17 ((((((((((((((((fs0 ++ fs1) ++ fs2) ++ fs3) ++ fs4) ++ fs5) ++ fs6) ++ fs7) ++ fs8) ++ fs9) ++ fs10) ++ fs11) ++ fs12) ++ fs13) ++ fs14) ++ fs15) ++ fs16) ((((((((((((((((fr0 ++ fr1) ++ fr2) ++ fr3) ++ fr4) ++ fr5) ++ fr6) ++ fr7) ++ fr8) ++ fr9) ++ fr10) ++ fr11) ++ fr12) ++ fr13) ++ fr14) ++ fr15) ++ fr16) := fors_app P _ _ _ 0 16 1 _ _ _ _ fa15 fp16
theorem fa17 : ForsPart K.enc8 hf pkB skB P 129844535052028 143 ids 0 18 (((((((((((((((((fs0 ++ fs1) ++ fs2) ++ fs3) ++ fs4) ++ fs5) ++ fs6) ++ fs7) ++ fs8) ++ fs9) ++ fs10) ++ fs11) ++ fs12) ++ fs13) ++ fs14) ++ fs15) ++ fs16) ++ fs17) (((((((((((((((((fr0 ++ fr1) ++ fr2) ++ fr3) ++ fr4) ++ fr5) ++ fr6) ++ fr7) ++ fr8) ++ fr9) ++ fr10) ++ fr11) ++ fr12) ++ fr13) ++ fr14) ++ fr15) ++ fr16) ++ fr17) := fors_app P _ _ _ 0 17 1 _ _ _ _ fa16 fp17
theorem fa18 : ForsPart K.enc8 hf pkB skB P 129844535052028 143 ids 0 19 ((((((((((((((((((fs0 ++ fs1) ++ fs2) ++ fs3) ++ fs4) ++ fs5) ++ fs6) ++ fs7) ++ fs8) ++ fs9) ++ fs10) ++ fs11) ++ fs12) ++ fs13) ++ fs14) ++ fs15) ++ fs16) ++ fs17) ++ fs18) ((((((((((((((((((fr0 ++ fr1) ++ fr2) ++ fr3) ++ fr4) ++ fr5) ++ fr6) ++ fr7) ++ fr8) ++ fr9) ++ fr10) ++ fr11) ++ fr12) ++ fr13) ++ fr14) ++ fr15) ++ fr16) ++ fr17) ++ fr18) := fors_app P _ _ _ 0 18 1 _ _ _ _ fa17 fp18
theorem fa19 : ForsPart K.enc8 hf pkB skB P 129844535052028 143 ids 0 20 (((((((((((((((((((fs0 ++ fs1) ++ fs2) ++ fs3) ++ fs4) ++ fs5) ++ fs6) ++ fs7) ++ fs8) ++ fs9) ++ fs10) ++ fs11) ++ fs12) ++ fs13) ++ fs14) ++ fs15) ++ fs16) ++ fs17) ++ fs18) ++ fs19) (((((((((((((((((((fr0 ++ fr1) ++ fr2) ++ fr3) ++ fr4) ++ fr5) ++ fr6) ++ fr7) ++ fr8) ++ fr9) ++ fr10) ++ fr11) ++ fr12) ++ fr13) ++ fr14) ++ fr15) ++ fr16) ++ fr17) ++ fr18) ++ fr19) := fors_app P _ _ _ 0 19 1 _ _ _ _ fa18 fp19
theorem fa20 : ForsPart K.enc8 hf pkB skB P 129844535052028 143 ids 0 21 ((((((((((((((((((((fs0 ++ fs1) ++ fs2) ++ fs3) ++ fs4) ++ fs5) ++ fs6) ++ fs7) ++ fs8) ++ fs9) ++ fs10) ++ fs11) ++ fs12) ++ fs13) ++ fs14) ++ fs15) ++ fs16) ++ fs17) ++ fs18) ++ fs19) ++ fs20) ((((((((((((((((((((fr0 ++ fr1) ++ fr2) ++ fr3) ++ fr4) ++ fr5) ++ fr6) ++ fr7) ++ fr8) ++ fr9) ++ fr10) ++ fr11) ++ fr12) ++ fr13) ++ fr14) ++ fr15) ++ fr16) ++ fr17) ++ fr18) ++ fr19) ++ fr20) := fors_app P _ _ _ 0 20 1 _ _ _ _ fa19 fp20
theorem fa21 : ForsPart K.enc8 hf pkB skB P 129844535052028 143 ids 0 22 (((((((((((((((((((((fs0 ++ fs1) ++ fs2) ++ fs3) ++ fs4) ++ fs5) ++ fs6) ++ fs7) ++ fs8) ++ fs9) ++ fs10) ++ fs11) ++ fs12) ++ fs13) ++ fs14) ++ fs15) ++ fs16) ++ fs17) ++ fs18) ++ fs19) ++ fs20) ++ fs21) (((((((((((((((((((((fr0 ++ fr1) ++ fr2) ++ fr3) ++ fr4) ++ fr5) ++ fr6) ++ fr7) ++ fr8) ++ fr9) ++ fr10) ++ fr11) ++ fr12) ++ fr13) ++ fr14) ++ fr15) ++ fr16) ++ fr17) ++ fr18) ++ fr19) ++ fr20) ++ fr21) := fors_app P _ _ _ 0 21 1 _ _ _ _ fa20 fp21
def m0 : List Nat := [0x2563ac3ece07a4ef, 0xda6de644e1405ad5, 0xa505dd2f0e6d5e94, 0x345de0adc67bb824]
theorem fk : forsPk P hf skB pkB 129844535052028 143 = K.enc8 m0 := fors_pk snd P (by decide) _ _ (by omega) (by omega) ids _ _ fa21 (by decide +kernel) (by decide +kernel) _ (by decide +kernel)

/-! ## Hypertree -/


end Kat.Shake_256s
