import Verif.Kat.Sha2_192s.P0
/-!
# Known answer for sha2_192s: parts of the signature, checked by the kernel

Written by tools/katgen.py from testvector.h.
-/
set_option Elab.async false
noncomputable section
namespace Kat.Sha2_192s
open Spec Spec.Slh Model

def fs9 : List (List Nat) := blks 32 6 15 0x20518263ebee6b80893ee52b14c391b9a06e75b9d2300ba1375ad29f6ffaa6f7897665a76916c6df0b8e0e72da0c324034e997650119b3eff3783ae2ce8ee09eec59eeea796c56650bf90872893f75fde789cad3270b00665036afabbf276e632d385e2bf20e76352bcca8a395cb192aa724d431ff37a77bfe19c4826f463076f6727ebf64ca51cb5174d591cc43b688d6e3314bf5a289850fb0ca5561f055eaa1ef9f56a515d276ddc720989f010491317156f8c1316d4b099c707df28a36ba24a58f8d4bdb51634cc55e86d56d2a1cd8715717c734acc7038bccf2a3553d883d2a8a1e7e94cb152bce1eb86436a26267402d637c56528df4bd9c15bfad1df3dc2069bfb8955cd4e056e10b07f36361a7e4668e157ea072fb149274f2a5fd367ff8832ca405598bc5a6e0aa6863b4aed1e214edf7fa47aaaf3ca230c43370f39d6521f6c189520cbe459fe490073bf1b4a466ecefae9004de47dbf796cef2072531f8cfbbd52510
def fr9 : List (List Nat) := blks 32 6 1 0x6af091d790c71f8b3799a94535555f54dc89be9501aa3184
theorem fc9 : eqLL (forsP O 14 9 1 11559633998364827 103 ids) (fs9 ++ fr9) = true := by krfl
theorem fp9 : ForsPart S256.enc4 hf pkB skB P 11559633998364827 103 ids 9 1 fs9 fr9 := fors_part snd P (by decide) _ _ (by omega) (by omega) _ ids_lt _ _ (by decide) _ _ (by decide +kernel) fc9
def fs10 : List (List Nat) := blks 32 6 15 0xae94878e380c8b5cb7d3a3565d67b86a43b6ca82865ac6f70d9187779784c34e7d8676efaa7cb24347d457c4c7aa9b6c87f3f52a0844d5e6c6d285c4b6a3d196148f0e2170e2f8282f27a8790cf60b4af01453975dfbd9f3f54e6e77fd0c82a2f35936154f5189cc48bbecaafcdc6fe1dea6fdeb00b99b872c6475661be31797e86b8584d0a44afd2579efac821b2a45249080a7c82a1cf9bbcebae74004f8512155aa473f6a3a9552a3594ef7149e36728f09cf4814389aaba1e360311c815360545ece626f58ee9c5d06463fbf45b067ff2e8a4912474f994f7860fc0a256e54a35814513d6c2731e2b25dce880ea48a1138738d3d370d6055d4f1a0f5d79a91ffb3a5de334d8902dbebacc214f7e2bb742609bca41ad59a3ed79333eae8a570e31f7d8c665ddf6ab58acae67a4930973bbbb2d4a3d4a53f482752066eb9f6221f86ad1b0c6878a75b5e2bd1f023c4403f63cba76375353882f191f585dcd63ded327ab13aa16f
def fr10 : List (List Nat) := blks 32 6 1 0xf1dbc837766e523a2452430045563ebe7c0024d905d79442
theorem fc10 : eqLL (forsP O 14 10 1 11559633998364827 103 ids) (fs10 ++ fr10) = true := by krfl
theorem fp10 : ForsPart S256.enc4 hf pkB skB P 11559633998364827 103 ids 10 1 fs10 fr10 := fors_part snd P (by decide) _ _ (by omega) (by omega) _ ids_lt _ _ (by decide) _ _ (by decide +kernel) fc10
def fs11 : List (List Nat) := blks 32 6 15 0x713a7bc9558b0471b075541261d79bd91a95ad26892667b454eeda6e707e631031b16a0b4983b4f4deb664778543c17d33d1d5d70d473bec886fa1cd56b4c42bdb8447f58529b5d2a0c875fee079f20e094ed35a652fe83bd031627868136eac812547fb0ab74bf912650a22632793460586cce8c52859b5ee09af908bb36562b262f00a580cc0c14ebf92c031a802f925ed8d7b0710b6f47a7815152456e7f160dbb0f27c11e929e265375655c649b078901dccb62ab590099d862794ee6befba4d79d89316c32863584cbc975b4b6bba42b7d3d42182c5e1a848fabf2ab86d0513e28898c8883206115b624c1d6e60682b59bb7e66ed440e711bfb44abc1ea80e77ac4d3c8ad19603957665dad9eba0768020f3a9a22f7f8fe1f64535163a4969e2a36ee745a6d91397e1adb984e986101508f4448c588bde2c66d3bdb9abbfa60c292fcc548d7785adfa06837afb35f3b5e89f2dafda0bbc32b68f0fc084dd0ceb58de20dfad4
def fr11 : List (List Nat) := blks 32 6 1 0x4a41f86ba86b14f1d0557331d463fab2732e51d1fa599a69
theorem fc11 : eqLL (forsP O 14 11 1 11559633998364827 103 ids) (fs11 ++ fr11) = true := by krfl
theorem fp11 : ForsPart S256.enc4 hf pkB skB P 11559633998364827 103 ids 11 1 fs11 fr11 := fors_part snd P (by decide) _ _ (by omega) (by omega) _ ids_lt _ _ (by decide) _ _ (by decide +kernel) fc11
def fs12 : List (List Nat) := blks 32 6 15 0xcee2d914da789b585857fea4ae05f59532eb981e870270db2676888d436a07437bf444bfdcdf66035acd47ef460c6c95a784e059b8bf2f6f4bbf5f640f8675c5ebccedd957064d4605cda28ec8d9630a5bd27eb8f62aea209e417da349559f7930c7e489125d91eb8a4d5d889d4102658137b4cfc8d05921158792e63b21d80f48667efb175aaebd4bdb4b96e59ec096593f51c76fb8ff1d65e65067aa1c5dd08909ce4b5c1cddc4bfc4f5f4a20de846752ef61294683bc1c15dd001c2ff5f75e459334b2a5b636daedf8e0ae8d0e1123801ff262b8693bba9d405e3df108ef1ceae5a2ae36363b9482e57e1f59cebf5c5c1414b1d41fc8ae5137e2e3a4ff6e994b10f7a850f1ea23e6646657f5a14a8a970c7fc80828569f0f3ee36414c13acb6cc036b86e19dc6f62eec47329dc3459b4fa838d7ae62acfba175bb118aee64f10040dacb9e657dde01ce23ba101176442f52703311e253cef95a1f1dc2dc42f843d35f81e60506
def fr12 : List (List Nat) := blks 32 6 1 0xf956eeee558236e2c8d654ea95e07df5b268855c455bc8cb
theorem fc12 : eqLL (forsP O 14 12 1 11559633998364827 103 ids) (fs12 ++ fr12) = true := by krfl
theorem fp12 : ForsPart S256.enc4 hf pkB skB P 11559633998364827 103 ids 12 1 fs12 fr12 := fors_part snd P (by decide) _ _ (by omega) (by omega) _ ids_lt _ _ (by decide) _ _ (by decide +kernel) fc12
def fs13 : List (List Nat) := blks 32 6 15 0x8f0b4b4c35b552a98f8f2c7357fec6f08e48b1b94110a0ea1ab9b3e7bd7d25b29b0514187987e5791312d79ef50a464959961f93d312a4f00df4943d8b7251920d531534052699e99aa794e1c871b965f88a5b06b51f72a60183f84f4b3e0c00650c2eeca4933ddf5bd181951b2cadbcfaf4db80a87de0207a12909921ff645fd7fb49f620a5a17f9b4f7a4fb9f7ffde3f24afbb3ca3ebc46f5fba728515d2f6b418f9b2449cb3218f3804d965c3bc3a91e3693bdad212cd73263dceeb15ff5337f281be12e4d025a21a1cb6faf199dd1e4ae7b9fd2efe4cb0316fcfe14c240f1afa7c5d7b9b48a19aa9d2039ad93e317c332205adfb1b2a124faedad2f7b14f54c1a29fa5eb3add9bdfaf0d9557d7036b08b6f473c06b4e01336d762b648d2cf7179ebb5d8aa359dbdf09189b475930ef915423de77f8acf31af099f905fd09c8a587569dd17274e3bd01fea8a9c2d4ab687b0aba543244da5f800e626379bd5f6e0b9b15a1cdd9
def fr13 : List (List Nat) := blks 32 6 1 0x2c097738fe99c8695e534b2c9375a3965797dc74d2a8629b
theorem fc13 : eqLL (forsP O 14 13 1 11559633998364827 103 ids) (fs13 ++ fr13) = true := by krfl
theorem fp13 : ForsPart S256.enc4 hf pkB skB P 11559633998364827 103 ids 13 1 fs13 fr13 := fors_part snd P (by decide) _ _ (by omega) (by omega) _ ids_lt _ _ (by decide) _ _ (by decide +kernel) fc13
def fs14 : List (List Nat) := blks 32 6 15 0xaa2a81ccf5c611ffa90a88cacf669c9e30d2e0f805191acf24848f8a67d23f5f75bdcfe838af773634ccf036b3146816c6a83b7617755b5c4385e48e6445cdf21a2243fc3e2a73c106d9cec3321fc6bce785498f6f5744954c0ae5636275740603d7722071f13ac36367dcf9a18da8fef53b5236830750dd746d793d07147cff95e42600c819659dc15c601a8b1a79d5d10606c471a6943ecd649c0b523b4c78f65332a513a5af68c00c44ab142a642504c51c18b5d0598c2a6cb04495aca78067af86c5bd396b149eee457c1301af9db9e9c7464a9cf9aa7f18c3fc2b849eab21faa86c312ba3fb09958e4aa0e062a90c17139604d781bf2d798f61a0882980fc3c2c2b6cbacc3ba2f5ab1339aa726109a03f9182fd5b197af441991372c60e757bded0c2276e96b23432b95ae35057d39bb14d03b2e8a55efabcc4a1baa748fec7341ff72a26053f613a4dc16725df6a88ccacaaccf9fe114c5e16959d5a4bf19ce57bac23011d
def fr14 : List (List Nat) := blks 32 6 1 0xeda958224e5b30322853408acc65dab10819643cc574d02
theorem fc14 : eqLL (forsP O 14 14 1 11559633998364827 103 ids) (fs14 ++ fr14) = true := by krfl
theorem fp14 : ForsPart S256.enc4 hf pkB skB P 11559633998364827 103 ids 14 1 fs14 fr14 := fors_part snd P (by decide) _ _ (by omega) (by omega) _ ids_lt _ _ (by decide) _ _ (by decide +kernel) fc14
def fs15 : List (List Nat) := blks 32 6 15 0x9534fa6bb48ca8d52dc5b4bc9bca209798434663355ab72a02c057b35a63e8982b2733c031379ee207300b6deedc32adc1a48037f41eb43ffc95da444c6dd99666cb0c1e0878afc6b8673dab5c2029ced87f232d01ba10b50fbade903bda91347fe72446da6879fff0926a3db435bff4ddc0ce7d5ff5da80cd479cffcbaef03b1f7681bd840e3703ea92e7bf890025977dc75497d63ea34969a90e4bed3de1e1c7a5f1643cdbe4bda2ee5237e48a33b2d89f9c8c88ebf7387a3a975975332dbdf9fd9cdc348017d88b567e427054838570e5a8c94a83f54ed67ad573e5b5ed9c842b40d864f059641bf55f19e013d32525f133fbcbf5ea379ac85bcd650530819c3eb68997678e21a68d9d64769dfc3eb5ed140b895d768ff848dce4165d4b865592031b4974d6959baf042c69d41ca7070170981f3d7ccc5d04f729b5a400eef5abe0cbb360c87b249396e43ba4e2a815bcd3dfc44788b69b41d932771ffdb8b56ca52aca1207f9
def fr15 : List (List Nat) := blks 32 6 1 0x351a66c5f4d9d925cb5eb21c1a0184fd64d29f0913d8bf1
theorem fc15 : eqLL (forsP O 14 15 1 11559633998364827 103 ids) (fs15 ++ fr15) = true := by krfl
theorem fp15 : ForsPart S256.enc4 hf pkB skB P 11559633998364827 103 ids 15 1 fs15 fr15 := fors_part snd P (by decide) _ _ (by omega) (by omega) _ ids_lt _ _ (by decide) _ _ (by decide +kernel) fc15
def fs16 : List (List Nat) := blks 32 6 15 0x93a9079ca11dd51161adff85c821f43c0651fd83c6f4081a983c736658725e24cb2884b272a13936601ff3fb0ea65b1a2526f5903f6e30d77969f33fbd1037fb37a03087e68e33d1d937fa3f0189f6819c39cb9057928c9d5cb42b7ef5c40d6b37d7ae4b9a899570c989935ef002a4d09b8f1d9d0cbf8422cff9beb8926d454b972e27af94371ba7353fec598c93a67d9f306814f980ee0bfa9134a849ef9d616bfb313794440faa05d0a2845a41bcdb83874ce590dde31f33ea446c113ae006d566f89fb1bf27c7e3d318f532ee5388176e5c1ec344701c2132b6c8495b35c64ae018bc18578b1b5bc8efbf72f3693d520943f4ce5e15c9cf1219854987a2d4b23d49a897fe879570a1a477925b9eeafbea6bcf2ef098edd3c13317035332b16ef40895efc80f73f00882a085dbf6cdabdd79a15da790cc1cb4385c185b7a9ac3aaf5f230c4a398f106cfb9c67c0d2a9d4cb0e820e786870023c901f1526b154e8e7c0bfe130262
def fr16 : List (List Nat) := blks 32 6 1 0x415db9e07e9fb6468525cf496e948b691880a29e3247004b
theorem fc16 : eqLL (forsP O 14 16 1 11559633998364827 103 ids) (fs16 ++ fr16) = true := by krfl
theorem fp16 : ForsPart S256.enc4 hf pkB skB P 11559633998364827 103 ids 16 1 fs16 fr16 := fors_part snd P (by decide) _ _ (by omega) (by omega) _ ids_lt _ _ (by decide) _ _ (by decide +kernel) fc16
theorem fa1 : ForsPart S256.enc4 hf pkB skB P 11559633998364827 103 ids 0 2 (fs0 ++ fs1) (fr0 ++ fr1) := fors_app P _ _ _ 0 1 1 _ _ _ _ fp0 fp1
theorem fa2 : ForsPart S256.enc4 hf pkB skB P 11559633998364827 103 ids 0 3 ((fs0 ++ fs1) ++ fs2) ((fr0 ++ fr1) ++ fr2) := fors_app P _ _ _ 0 2 1 _ _ _ _ fa1 fp2
theorem fa3 : ForsPart S256.enc4 hf pkB skB P 11559633998364827 103 ids 0 4 (((fs0 ++ fs1) ++ fs2) ++ fs3) (((fr0 ++ fr1) ++ fr2) ++ fr3) := fors_app P _ _ _ 0 3 1 _ _ _ _ fa2 fp3
theorem fa4 : ForsPart S256.enc4 hf pkB skB P 11559633998364827 103 ids 0 5 ((((fs0 ++ fs1) ++ fs2) ++ fs3) ++ fs4) ((((fr0 ++ fr1) ++ fr2) ++ fr3) ++ fr4) := fors_app P _ _ _ 0 4 1 _ _ _ _ fa3 fp4
theorem fa5 : ForsPart S256.enc4 hf pkB skB P 11559633998364827 103 ids 0 6 (((((fs0 ++ fs1) ++ fs2) ++ fs3) ++ fs4) ++ fs5) (((((fr0 ++ fr1) ++ fr2) ++ fr3) ++ fr4) ++ fr5) := fors_app P _ _ _ 0 5 1 _ _ _ _ fa4 fp5
theorem fa6 : ForsPart S256.enc4 hf pkB skB P 11559633998364827 103 ids 0 7 ((((((fs0 ++ fs1) ++ fs2) ++ fs3) ++ fs4) ++ fs5) ++ fs6) ((((((fr0 ++ fr1) ++ fr2) ++ fr3) ++ fr4) ++ fr5) ++ fr6) := fors_app P _ _ _ 0 6 1 _ _ _ _ fa5 fp6
theorem fa7 : ForsPart S256.enc4 hf pkB skB P 11559633998364827 103 ids 0 8 (((((((fs0 ++ fs1) ++ fs2) ++ fs3) ++ fs4) ++ fs5) ++ fs6) ++ fs7) (((((((fr0 ++ fr1) ++ fr2) ++ fr3) ++ fr4) ++ fr5) ++ fr6) ++ fr7) := fors_app P _ _ _ 0 7 1 _ _ _ _ fa6 fp7
theorem fa8 : ForsPart S256.enc4 hf pkB skB P 11559633998364827 103 ids 0 9 ((((((((fs0 ++ fs1) ++ fs2) ++ fs3) ++ fs4) ++ fs5) ++ fs6) ++ fs7) ++ fs8) ((((((((fr0 ++ fr1) ++ fr2) ++ fr3) ++ fr4) ++ fr5) ++ fr6) ++ fr7) ++ fr8) := fors_app P _ _ _ 0 8 1 _ _ _ _ fa7 fp8
theorem fa9 : ForsPart S256.enc4 hf pkB skB P 11559633998364827 103 ids 0 10 (((((((((fs0 ++ fs1) ++ fs2) ++ fs3) ++ fs4) ++ fs5) ++ fs6) ++ fs7) ++ fs8) ++ fs9) (((((((((fr0 ++ fr1) ++ fr2) ++ fr3) ++ fr4) ++ fr5) ++ fr6) ++ fr7) ++ fr8) ++ fr9) := fors_app P _ _ _ 0 9 1 _ _ _ _ fa8 fp9
theorem fa10 : ForsPart S256.enc4 hf pkB skB P 11559633998364827 103 ids 0 11 ((((((((((fs0 ++ fs1) ++ fs2) ++ fs3) ++ fs4) ++ fs5) ++ fs6) ++ fs7) ++ fs8) ++ fs9) ++ fs10) ((((((((((fr0 ++ fr1) ++ fr2) ++ fr3) ++ fr4) ++ fr5) ++ fr6) ++ fr7) ++ fr8) ++ fr9) ++ fr10) := fors_app P _ _ _ 0 10 1 _ _ _ _ fa9 fp10
theorem fa11 : ForsPart S256.enc4 hf pkB skB P 11559633998364827 103 ids 0 12 (((((((((((fs0 ++ fs1) ++ fs2) ++ fs3) ++ fs4) ++ fs5) ++ fs6) ++ fs7) ++ fs8) ++ fs9) ++ fs10) ++ fs11) (((((((((((fr0 ++ fr1) ++ fr2) ++ fr3) ++ fr4) ++ fr5) ++ fr6) ++ fr7) ++ fr8) ++ fr9) ++ fr10) ++ fr11) := fors_app P _ _ _ 0 11 1 _ _ _ _ fa10 fp11
theorem fa12 : ForsPart S256.enc4 hf pkB skB P 11559633998364827 103 ids 0 13 ((((((((((((fs0 ++ fs1) ++ fs2) ++ fs3) ++ fs4) ++ fs5) ++ fs6) ++ fs7) ++ fs8) ++ fs9) ++ fs10) ++ fs11) ++ fs12) ((((((((((((fr0 ++ fr1) ++ fr2) ++ fr3) ++ fr4) ++ fr5) ++ fr6) ++ fr7) ++ fr8) ++ fr9) ++ fr10) ++ fr11) ++ fr12) := fors_app P _ _ _ 0 12 1 _ _ _ _ fa11 fp12
theorem fa13 : ForsPart S256.enc4 hf pkB skB P 11559633998364827 103 ids 0 14 (((((((((((((fs0 ++ fs1) ++ fs2) ++ fs3) ++ fs4) ++ fs5) ++ fs6) ++ fs7) ++ fs8) ++ fs9) ++ fs10) ++ fs11) ++ fs12) ++ fs13) (((((((((((((fr0 ++ fr1) ++ fr2) ++ fr3) ++ fr4) ++ fr5) ++ fr6) ++ fr7) ++ fr8) ++ fr9) ++ fr10) ++ fr11) ++ fr12) ++ fr13) := fors_app P _ _ _ 0 13 1 _ _ _ _ fa12 fp13
theorem fa14 : ForsPart S256.enc4 hf pkB skB P 11559633998364827 103 ids 0 15 ((((((((((((((fs0 ++ fs1) ++ fs2) ++ fs3) ++ fs4) ++ fs5) ++ fs6) ++ fs7) ++ fs8) ++ fs9) ++ fs10) ++ fs11) ++ fs12) ++ fs13) ++ fs14) ((((((((((((((fr0 ++ fr1) ++ fr2) ++ fr3) ++ fr4) ++ fr5) ++ fr6) ++ fr7) ++ fr8) ++ fr9) ++ fr10) ++ fr11) ++ fr12) ++ fr13) ++ fr14) := fors_app P _ _ _ 0 14 1 _ _ _ _ fa13 fp14
theorem fa15 : ForsPart S256.enc4 hf pkB skB P 11559633998364827 103 ids 0 16 (((((((((((((((fs0 ++ fs1) ++ fs2) ++ fs3) ++ fs4) ++ fs5) ++ fs6) ++ fs7) ++ fs8) ++ fs9) ++ fs10) ++ fs11) ++ fs12) ++ fs13) ++ fs14) ++ fs15) (((((((((((((((fr0 ++ fr1) ++ fr2) ++ fr3) ++ fr4) ++ fr5) ++ fr6) ++ fr7) ++ fr8) ++ fr9) ++ fr10) ++ fr11) ++ fr12) ++ fr13) ++ fr14) ++ fr15) := fors_app P _ _ _ 0 15 1 _ _ _ _ fa14 fp15
theorem fa16 : ForsPart S256.enc4 hf pkB skB P 11559633998364827 103 ids 0 17 ((((((((((((((((fs0 ++ fs1) ++ fs2) ++ fs3) ++ fs4) ++ fs5) ++ fs6) ++ fs7) ++ fs8) ++ fs9) ++ fs10) ++ fs11) ++ fs12) ++ fs13) ++ fs14) ++ fs15) ++ fs16) ((((((((((((((((fr0 ++ fr1) ++ fr2) ++ fr3) ++ fr4) ++ fr5) ++ fr6) ++ fr7) ++ fr8) ++ fr9) ++ fr10) ++ fr11) ++ fr12) ++ fr13) ++ fr14) ++ fr15) ++ fr16) := fors_app P _ _ _ 0 16 1 _ _ _ _ fa15 fp16
def m0 : List Nat := [0x784c0bf6, 0xf74ef393, 0x43b97df6, 0x77784f8b, 0x2886bd53, 0x9f7b6f63]
theorem fk : forsPk P hf skB pkB 11559633998364827 103 = S256.enc4 m0 := fors_pk snd P (by decide) _ _ (by omega) (by omega) ids _ _ fa16 (by decide +kernel) (by decide +kernel) _ (by decide +kernel)

/-! ## Hypertree -/


end Kat.Sha2_192s
