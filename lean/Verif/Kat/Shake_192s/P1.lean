import Verif.Kat.Shake_192s.P0
/-!
# Known answer for shake_192s: parts of the signature, checked by the kernel

Written by tools/katgen.py from testvector.h.
-/
set_option Elab.async false
noncomputable section
namespace Kat.Shake_192s
open Spec Spec.Slh Model

def fs9 : List (List Nat) := blks 64 3 15 0x2754c13a1d7ab7bfe0fa3520b01de10ea63ba06d347ad29f32c0f84d90977ed5ee7b3229db87a68f09f39ad6322d006a6ef5df00112599d27e3669430134d0c498cc8c21440563ba20aad8e74cec0c63c22f6945d32a21ff31b4414f58d778799440aadc27b101bcacb76e8c3a70fb2839e6fde95047ae618228ec9cdebe7586b9a3e89e2449fdd4df5b2edd93d84a4dd4e93ee97ecad80b370e0b83d76304fda3199a75c0da164f514c8522a66d9b51f0658bee05b9d4f8a33f2ebd47b647e225652c684b46b9de511f0ddeb12f4222fb87c9c2d5ca601e32c7281e6729275483bfd2f5b7dd96dba00b30cdd8538ef975884f362e57ebd4acc7333a5caafb5d63e31eab16f4e1a371482a5a5eef5006d1052067aff94ac2c0068c6632b228267b316e836977eaf97cb22f652b0b4d8bfe25e446d3f73dfedb682f486be1989fbd2c6f5b296f654f38ed5b33145dbbb1b74109e5034f9981ee5a33de7808d1174fc96b26dfa9d72
def fr9 : List (List Nat) := blks 64 3 1 0xd47b5d61018d12d2f9cd45f651311d12e4672f7f12ba09d7
theorem fc9 : eqLL (forsP O 14 9 1 8735687204237042 315 ids) (fs9 ++ fr9) = true := by krfl
theorem fp9 : ForsPart K.enc8 hf pkB skB P 8735687204237042 315 ids 9 1 fs9 fr9 := fors_part snd P (by decide) _ _ (by omega) (by omega) _ ids_lt _ _ (by decide) _ _ (by decide +kernel) fc9
def fs10 : List (List Nat) := blks 64 3 15 0x3cfa948348c6b93093e7ea790d63bdb3a45c6258d82d9ca2e2773d3d0f109f6bc2f12bf1f484224490f5f6a266a65aaa0812b58d8af0bbdf4673c3257f0ec2fe52a646a95231d02477313d4d5f3b7803fc8349e1071806e0793e664075eabbf8e277d2a670f4047fbb33ee776e7304cda1809abf4a9e27bbc1cdc9780495fe36ee29cdddf19fae07d372555d19fb56072418595d59a6643d0e947b04d0ca4868638d39acb0662fdf5c6cf254c55aa64f5a9cd3563f10e7fe97696d6ac15bd3e624e267e70af159330c95073b4e35841665482c69223112e4da2a2abfa55d57ebf88129c75466c24dad3789383091e9edb43e7ba6e7cab9b3c41a1cdb0ce5f71daf62e4b68b2a947801146b9bf69e7d3162535017cf2feaec5e324b436d8b841e195733bdf335e6fe1488b31cabdbc01212e4feeb59bef7efa0e2de488c1adb6e00d8a46672d16249054833d7618a5f406f5b5377bb6690ab574f148600af1b2b366bfba624608b4a
def fr10 : List (List Nat) := blks 64 3 1 0x59495b82c5c53a6235d1dad55045de5c7c0dac0ded9175d3
theorem fc10 : eqLL (forsP O 14 10 1 8735687204237042 315 ids) (fs10 ++ fr10) = true := by krfl
theorem fp10 : ForsPart K.enc8 hf pkB skB P 8735687204237042 315 ids 10 1 fs10 fr10 := fors_part snd P (by decide) _ _ (by omega) (by omega) _ ids_lt _ _ (by decide) _ _ (by decide +kernel) fc10
def fs11 : List (List Nat) := blks 64 3 15 0x436bbb757df9f221664655198a06600d9cf6be99592570d79df0b64206d5e4e8f3b738291c53a3a949f95a00b59911894d4338c832fd65539d2a98642fe5441a3d24123935c9eb74eb37a50907d62eaf71967fc6e314e787551a628113dddc9d3063b39bbbcaaaeb78e678df6e81e95f9db383117daf1a732976a08793b998ba48080d6ac96edceb49429f59386e5550bf67662cec08dd8b87e23463f120193b48120752a16a31de500b1e8d5837ed84e1d50daa9a52c618604ffcccbd7c09a5b12aeceaed13a7698d33ad15ef4449933b1ff1826b32f4297fd46fe5dd232bae989432dfb8ef8463155adb20f4fc6d0f28620c029ff80ed7003852d924df7b75f92e62786023ce5729e23bc15e097923ad084244c15615a2d6ee90ba3000a910976a0f66e7affe76530dd00e8248f54d050625d0f5525b1b7add4acbe55058eb799cbadf27daf8e9ea3af409265b20aeaacd66ddcf872388f9dffde5fc44858cfd3bb897183607b
def fr11 : List (List Nat) := blks 64 3 1 0x1d4cf45e71ebf1ca9623cb1c36e7f8e71febd8203cb55783
theorem fc11 : eqLL (forsP O 14 11 1 8735687204237042 315 ids) (fs11 ++ fr11) = true := by krfl
theorem fp11 : ForsPart K.enc8 hf pkB skB P 8735687204237042 315 ids 11 1 fs11 fr11 := fors_part snd P (by decide) _ _ (by omega) (by omega) _ ids_lt _ _ (by decide) _ _ (by decide +kernel) fc11
def fs12 : List (List Nat) := blks 64 3 15 0xf3fb94fa77345cec46c2e95e47636da2200e59d84a006c61a9c46391df9d5eb8c8ba7e627bdad18a88a44cd592d12a4d59105d628a42f4056053821b1138ecb259ea53cca56cb33db37e5814daa049e2d6ede516c0d779f2ff967f8c54f27254d47f4754d4364d75fce6fdde257f158ada71a3a64ce6b455bd98cdbacec0ebfdec3b43350800b200650465512cc45e6a00411299ad73808c1d7efa07f236d6826a26105286defb0fa111369af2825a3067de8a80032209275b0812bb705eeb8b510e809ff2962cf2d71f5def6fa9bb510bfc0009a5cf95ba13f1be994483c6fd59120011f0ce7cfe456b73b529709bfe66eb64883f31d73784fddaa04f23012f3563a7da9125aa8faa24eef7d4e57cf0498cc3764351b2510ad899ac6cfffdbe1973f50b18b08eadbdf002ee364ca0b6c02fa831da382bc38b894ecc0ab28de8b6606334149e75550a2a015b0f56a1d4c0a830b92a0dc35b815289039154b29c634cf563bce400d0
def fr12 : List (List Nat) := blks 64 3 1 0x3d496a0809bd5425e87dabaf0508a9651c55e6810c96b73
theorem fc12 : eqLL (forsP O 14 12 1 8735687204237042 315 ids) (fs12 ++ fr12) = true := by krfl
theorem fp12 : ForsPart K.enc8 hf pkB skB P 8735687204237042 315 ids 12 1 fs12 fr12 := fors_part snd P (by decide) _ _ (by omega) (by omega) _ ids_lt _ _ (by decide) _ _ (by decide +kernel) fc12
def fs13 : List (List Nat) := blks 64 3 15 0x416630a8d8b71415fd4c5464e2d71be91b64016c44ce03a373bee34663bcb8c78601ef0fb2c97b99f546999482e1cee8f724b721a35c0def06948c6c4dfd6e1b7729342ea5364582684c907f753038a451693bf04fe2921c31e528b7f1dc785ac9f0c7546438a7896eaccb8ec25177971b0dacdc027975eaaac288ac47cba2e88c55d5dc4db185352e7efcceb6b6b3df9c5a358e760c1769ea7322e3dddf604edec75206b9dc91962f903155b8f1f7522b02ace7f29154adcb824eec2274d69bb4e5a1a247f663e8934f5c75b6267f761bf7c61eafd85dbd5ecd3ca8d6b24dbc104430d745327ba04b20d0481bf8373f3398888e20d6a2cba4a2f62fbaf5c4f69da88be56a8f797629b68a954de0f6c666bd7445b0d7bb8902070de660d8502585eb04f40ebdeb8106b22a8ca65e4c95d1235448c9115c9198e53fd20571c1c21bed908f884ee554fb4bb3eabcae55e2584a40f76587bbfcf61defd08bab978a20b9389223443e28
def fr13 : List (List Nat) := blks 64 3 1 0x47b84f32b57a5a05d15ed582d121376e09ae7e6beaa18f41
theorem fc13 : eqLL (forsP O 14 13 1 8735687204237042 315 ids) (fs13 ++ fr13) = true := by krfl
theorem fp13 : ForsPart K.enc8 hf pkB skB P 8735687204237042 315 ids 13 1 fs13 fr13 := fors_part snd P (by decide) _ _ (by omega) (by omega) _ ids_lt _ _ (by decide) _ _ (by decide +kernel) fc13
def fs14 : List (List Nat) := blks 64 3 15 0xadbcb07c4a2f4f4283ece8c931e8c943380f2473b19492f2c3741028b5229e2406e56aa44a371d21bfa75b12da165db2b321124a2914f1f76f8f136dc5b6e905e69cb94fa8332cc9779cabb5b8243301835a52ac54b2355bbbb772fd43036beaa54e02c34c308697bc6378dfd74b5671e5af7375528597917771ba50b0c1f83f7dd5debbfe5d0baebb2345b70981258128cd7407db8bb309c865b639000258c65785a438a98a8c4416de63c3d6b50394643874457585fade43de6e0de9c14e8a176f1e4907a0cffaad084a60116e901922ddae383d3677ec65a805991b33b650252947cfafb6855eea68d57c83e5a83c51ee4362d26b9e167578d44569b6840a6df2e533cdea500902885003eb265b6af1e38340080de55106a5e8491a95129b6e65a1467bc2b4fabfd9bf416bb7c39036cbaa7071bd4464dc0d52ba68b547eda613ea896dcde62b659108857efa7d2a71dcbb45d5bc0ae2bdec906ada9976db2c7a0a77a2092c62
def fr14 : List (List Nat) := blks 64 3 1 0xb2798c806257203ab7c10e2be5519f9e5138bde2aec0bb73
theorem fc14 : eqLL (forsP O 14 14 1 8735687204237042 315 ids) (fs14 ++ fr14) = true := by krfl
theorem fp14 : ForsPart K.enc8 hf pkB skB P 8735687204237042 315 ids 14 1 fs14 fr14 := fors_part snd P (by decide) _ _ (by omega) (by omega) _ ids_lt _ _ (by decide) _ _ (by decide +kernel) fc14
def fs15 : List (List Nat) := blks 64 3 15 0x5218571b36c7e0b6fbacc31e8322ec9b7ba0e3ba95c2ebf42d24d707b9026f7468d9f9e62fe552b475f71eb7f6a9792eecd064e21f02fd73817a6c00d6272ba996112c8d34c96662fff1678cb2b8869a06cff60ffd5be3a2a32e7b88b59653ab6affc8a1b77d36fe36c837028653c7aec2e4a14b6daa087e4f8193dc798582157fea122474ada64effedf388bd7c120a113636536b94a147f186f8d427f5047bfd78386bcb427f8431d8342629c0ab0ee6ddaed85e6cb027ff10229a3cf3bc12bdaf6c1d95b2783472f20cee888a6af6de26307ad1c9f577f35305682b384c3ac0282f5c0e289d3fe2bdaddbe26dbaccf0eac086586bbd18be15c7bdb1d4184f87f730fec66065bee70e09ba8a22d1112a148f794583d301b5f8f54616d2756d8238ebeaf186102e20c1c633a474125306ad7facab37cf087b16131877a8609b53675778943f97ffbb5ae11e9231bf59374a69fb4a719344aba79400c99aab17f996c2fa4946a7f5
def fr15 : List (List Nat) := blks 64 3 1 0x65509e41cf0bd47aa3afd60579b66645a51d2778f9e002a4
theorem fc15 : eqLL (forsP O 14 15 1 8735687204237042 315 ids) (fs15 ++ fr15) = true := by krfl
theorem fp15 : ForsPart K.enc8 hf pkB skB P 8735687204237042 315 ids 15 1 fs15 fr15 := fors_part snd P (by decide) _ _ (by omega) (by omega) _ ids_lt _ _ (by decide) _ _ (by decide +kernel) fc15
def fs16 : List (List Nat) := blks 64 3 15 0xe32672bbf851cd8dd22635a9e427186c4cfdb17f536a0b179c7faa33b194141b74898937233609a513e3ea7033f37e3f22a352ecde208504ba252f134381468380add7be454e3efb7e638ca46927edbe56f51a1fe45f306fd5711e776adb5dd0588f13e2d085cd1cdd31157593c413375b893f6b92e32f078ff96299c3a683921b17dc078d91274216d72fc5a147a9e3dc027fee3229533c502cfbfcc7777cbca23aa3fc95a5c0d1a57f628cc8c232194ba607889e3ef3ef3db525f9bfc5648dc61d5a89e960444c985a86aaaa1b525fab518216b34209d8af2b929e73e795b7f0c5dc5a1bf5546bb99f249a8a256714f61fa361926d5ef82734ca4670f9306deabf638c1bfc845f7208b0bea2d89269bde6029c9254d540f664f69f81b1e5cb8137eb7958bcf1472f5b3affd5c2047778e2e3d83df82ac186648bdff91db5be2f1cb78d630ca22cc2e18cc5cbb8dd4d17e864ea39f836fce880f69e446bf2dfd8df3c27ed21896c
def fr16 : List (List Nat) := blks 64 3 1 0x665ce169013420823e6ca7fff7db801d80c9e6db437e08bb
theorem fc16 : eqLL (forsP O 14 16 1 8735687204237042 315 ids) (fs16 ++ fr16) = true := by krfl
theorem fp16 : ForsPart K.enc8 hf pkB skB P 8735687204237042 315 ids 16 1 fs16 fr16 := fors_part snd P (by decide) _ _ (by omega) (by omega) _ ids_lt _ _ (by decide) _ _ (by decide +kernel) fc16
theorem fa1 : ForsPart K.enc8 hf pkB skB P 8735687204237042 315 ids 0 2 (fs0 ++ fs1) (fr0 ++ fr1) := fors_app P _ _ _ 0 1 1 _ _ _ _ fp0 fp1
theorem fa2 : ForsPart K.enc8 hf pkB skB P 8735687204237042 315 ids 0 3 ((fs0 ++ fs1) ++ fs2) ((fr0 ++ fr1) ++ fr2) := fors_app P _ _ _ 0 2 1 _ _ _ _ fa1 fp2
theorem fa3 : ForsPart K.enc8 hf pkB skB P 8735687204237042 315 ids 0 4 (((fs0 ++ fs1) ++ fs2) ++ fs3) (((fr0 ++ fr1) ++ fr2) ++ fr3) := fors_app P _ _ _ 0 3 1 _ _ _ _ fa2 fp3
theorem fa4 : ForsPart K.enc8 hf pkB skB P 8735687204237042 315 ids 0 5 ((((fs0 ++ fs1) ++ fs2) ++ fs3) ++ fs4) ((((fr0 ++ fr1) ++ fr2) ++ fr3) ++ fr4) := fors_app P _ _ _ 0 4 1 _ _ _ _ fa3 fp4
theorem fa5 : ForsPart K.enc8 hf pkB skB P 8735687204237042 315 ids 0 6 (((((fs0 ++ fs1) ++ fs2) ++ fs3) ++ fs4) ++ fs5) (((((fr0 ++ fr1) ++ fr2) ++ fr3) ++ fr4) ++ fr5) := fors_app P _ _ _ 0 5 1 _ _ _ _ fa4 fp5
theorem fa6 : ForsPart K.enc8 hf pkB skB P 8735687204237042 315 ids 0 7 ((((((fs0 ++ fs1) ++ fs2) ++ fs3) ++ fs4) ++ fs5) ++ fs6) ((((((fr0 ++ fr1) ++ fr2) ++ fr3) ++ fr4) ++ fr5) ++ fr6) := fors_app P _ _ _ 0 6 1 _ _ _ _ fa5 fp6
theorem fa7 : ForsPart K.enc8 hf pkB skB P 8735687204237042 315 ids 0 8 (((((((fs0 ++ fs1) ++ fs2) ++ fs3) ++ fs4) ++ fs5) ++ fs6) ++ fs7) (((((((fr0 ++ fr1) ++ fr2) ++ fr3) ++ fr4) ++ fr5) ++ fr6) ++ fr7) := fors_app P _ _ _ 0 7 1 _ _ _ _ fa6 fp7
theorem fa8 : ForsPart K.enc8 hf pkB skB P 8735687204237042 315 ids 0 9 ((((((((fs0 ++ fs1) ++ fs2) ++ fs3) ++ fs4) ++ fs5) ++ fs6) ++ fs7) ++ fs8) ((((((((fr0 ++ fr1) ++ fr2) ++ fr3) ++ fr4) ++ fr5) ++ fr6) ++ fr7) ++ fr8) := fors_app P _ _ _ 0 8 1 _ _ _ _ fa7 fp8
theorem fa9 : ForsPart K.enc8 hf pkB skB P 8735687204237042 315 ids 0 10 (((((((((fs0 ++ fs1) ++ fs2) ++ fs3) ++ fs4) ++ fs5) ++ fs6) ++ fs7) ++ fs8) ++ fs9) (((((((((fr0 ++ fr1) ++ fr2) ++ fr3) ++ fr4) ++ fr5) ++ fr6) ++ fr7) ++ fr8) ++ fr9) := fors_app P _ _ _ 0 9 1 _ _ _ _ fa8 fp9
theorem fa10 : ForsPart K.enc8 hf pkB skB P 8735687204237042 315 ids 0 11 ((((((((((fs0 ++ fs1) ++ fs2) ++ fs3) ++ fs4) ++ fs5) ++ fs6) ++ fs7) ++ fs8) ++ fs9) ++ fs10) ((((((((((fr0 ++ fr1) ++ fr2) ++ fr3) ++ fr4) ++ fr5) ++ fr6) ++ fr7) ++ fr8) ++ fr9) ++ fr10) := fors_app P _ _ _ 0 10 1 _ _ _ _ fa9 fp10
theorem fa11 : ForsPart K.enc8 hf pkB skB P 8735687204237042 315 ids 0 12 (((((((((((fs0 ++ fs1) ++ fs2) ++ fs3) ++ fs4) ++ fs5) ++ fs6) ++ fs7) ++ fs8) ++ fs9) ++ fs10) ++ fs11) (((((((((((fr0 ++ fr1) ++ fr2) ++ fr3) ++ fr4) ++ fr5) ++ fr6) ++ fr7) ++ fr8) ++ fr9) ++ fr10) ++ fr11) := fors_app P _ _ _ 0 11 1 _ _ _ _ fa10 fp11
theorem fa12 : ForsPart K.enc8 hf pkB skB P 8735687204237042 315 ids 0 13 ((((((((((((fs0 ++ fs1) ++ fs2) ++ fs3) ++ fs4) ++ fs5) ++ fs6) ++ fs7) ++ fs8) ++ fs9) ++ fs10) ++ fs11) ++ fs12) ((((((((((((fr0 ++ fr1) ++ fr2) ++ fr3) ++ fr4) ++ fr5) ++ fr6) ++ fr7) ++ fr8) ++ fr9) ++ fr10) ++ fr11) ++ fr12) := fors_app P _ _ _ 0 12 1 _ _ _ _ fa11 fp12
theorem fa13 : ForsPart K.enc8 hf pkB skB P 8735687204237042 315 ids 0 14 (((((((((((((fs0 ++ fs1) ++ fs2) ++ fs3) ++ fs4) ++ fs5) ++ fs6) ++ fs7) ++ fs8) ++ fs9) ++ fs10) ++ fs11) ++ fs12) ++ fs13) (((((((((((((fr0 ++ fr1) ++ fr2) ++ fr3) ++ fr4) ++ fr5) ++ fr6) ++ fr7) ++ fr8) ++ fr9) ++ fr10) ++ fr11) ++ fr12) ++ fr13) := fors_app P _ _ _ 0 13 1 _ _ _ _ fa12 fp13
theorem fa14 : ForsPart K.enc8 hf pkB skB P 8735687204237042 315 ids 0 15 ((((((((((((((fs0 ++ fs1) ++ fs2) ++ fs3) ++ fs4) ++ fs5) ++ fs6) ++ fs7) ++ fs8) ++ fs9) ++ fs10) ++ fs11) ++ fs12) ++ fs13) ++ fs14) ((((((((((((((fr0 ++ fr1) ++ fr2) ++ fr3) ++ fr4) ++ fr5) ++ fr6) ++ fr7) ++ fr8) ++ fr9) ++ fr10) ++ fr11) ++ fr12) ++ fr13) ++ fr14) := fors_app P _ _ _ 0 14 1 _ _ _ _ fa13 fp14
theorem fa15 : ForsPart K.enc8 hf pkB skB P 8735687204237042 315 ids 0 16 (((((((((((((((fs0 ++ fs1) ++ fs2) ++ fs3) ++ fs4) ++ fs5) ++ fs6) ++ fs7) ++ fs8) ++ fs9) ++ fs10) ++ fs11) ++ fs12) ++ fs13) ++ fs14) ++ fs15) (((((((((((((((fr0 ++ fr1) ++ fr2) ++ fr3) ++ fr4) ++ fr5) ++ fr6) ++ fr7) ++ fr8) ++ fr9) ++ fr10) ++ fr11) ++ fr12) ++ fr13) ++ fr14) ++ fr15) := fors_app P _ _ _ 0 15 1 _ _ _ _ fa14 fp15
theorem fa16 : ForsPart K.enc8 hf pkB skB P 8735687204237042 315 ids 0 17 ((((((((((((((((fs0 ++ fs1) ++ fs2) ++ fs3) ++ fs4) ++ fs5) ++ fs6) ++ fs7) ++ fs8) ++ fs9) ++ fs10) ++ fs11) ++ fs12) ++ fs13) ++ fs14) ++ fs15) ++ fs16) ((((((((((((((((fr0 ++ fr1) ++ fr2) ++ fr3) ++ fr4) ++ fr5) ++ fr6) ++ fr7) ++ fr8) ++ fr9) ++ fr10) ++ fr11) ++ fr12) ++ fr13) ++ fr14) ++ fr15) ++ fr16) := fors_app P _ _ _ 0 16 1 _ _ _ _ fa15 fp16
def m0 : List Nat := [0xc175584a872fa9f2, 0x4524239f263e8ec0, 0x24fe8de11f979593]
theorem fk : forsPk P hf skB pkB 8735687204237042 315 = K.enc8 m0 := fors_pk snd P (by decide) _ _ (by omega) (by omega) ids _ _ fa16 (by decide +kernel) (by decide +kernel) _ (by decide +kernel)

/-! ## Hypertree -/


end Kat.Shake_192s
