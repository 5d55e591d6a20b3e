import Verif.Kat.Nums
import Verif.Proof.KRfl
import Verif.Kat.OpsK
import Verif.Kat.Shake_256f.P3
/-!
# Known answer for shake_128s: parts of the signature, checked by the kernel

Written by tools/katgen.py from testvector.h.
-/
set_option Elab.async false
noncomputable section
namespace Kat.Shake_128s
open Spec Spec.Slh Model

abbrev P : Params := PsName.shake_128s.P
abbrev hf : HashFns := PsName.shake_128s.fns
def sk : List Nat := [0x706050403020100, 0xf0e0d0c0b0a0908]
def prf : List Nat := [0x1716151413121110, 0x1f1e1d1c1b1a1918]
def pk : List Nat := [0x2726252423222120, 0x2f2e2d2c2b2a2928]
def root : List Nat := [0x12945bbbfd81fd89, 0x82f66bdc1b76149b]
abbrev skB : Bytes := K.enc8 sk
abbrev pkB : Bytes := K.enc8 pk
def O : Ops := K.ops 2 [0x2726252423222120, 0x2f2e2d2c2b2a2928] [0x706050403020100, 0xf0e0d0c0b0a0908]
theorem snd : Sound O K.enc8 hf pkB skB := K.sound 16 2 rfl (by omega) _ _ (by decide) rfl (by decide)

/-! ## FORS -/

def ids : List Nat := [0xab0, 0xb41, 0x734, 834, 0x5be, 980, 0x4e3, 0x7e1, 0x99a, 0xaa8, 0x73e, 0xa4d, 0xd69, 0xff2]
theorem ids_lt (i : Nat) : ids.getD i 0 < 2 ^ P.a := by
  rw [List.getD_eq_getElem?_getD]
  by_cases h : i < ids.length
  · rw [List.getElem?_eq_getElem h, Option.getD_some]
    exact of_decide_eq_true (List.all_eq_true.1 (show ids.all (fun x => decide (x < 2 ^ P.a)) = true by decide) _ (List.getElem_mem h))
  · rw [List.getElem?_eq_none (by omega)]; decide
def fs0 : List (List Nat) := blks 64 2 13 0x73001bf5da9217cff52afa755de12e9db647c18b6edcfbeac1c51e3aa409a697c51ceb60903e0eb25482a4a9b48d27d3722dca3bfa94fc3822bbb4ea5afdcdb61eb7afc10954f52d86ac720db3485ee6e97f686a01b51e657f90e4fad04cddb8fd934a33bcd73344f47bc20877e32d5d72280a39ca9b9df61b28d2f19f1339acc13574016888dba6a8df16756c04a5c6baf292fc966eea3ba6b0177102096397b828b11830a4671db0f3d353b5cd972d9a7a4824eca05e373b2b6ddf85bbb4303341999dbf022162da1d5f076c9ada46
def fr0 : List (List Nat) := blks 64 2 1 0x197000de4ddc53968d0820e1f4e39483
theorem fc0 : eqLL (forsP O 12 0 1 8176196433515594 230 ids) (fs0 ++ fr0) = true := by krfl
theorem fp0 : ForsPart K.enc8 hf pkB skB P 8176196433515594 230 ids 0 1 fs0 fr0 := fors_part snd P (by decide) _ _ (by omega) (by omega) _ ids_lt _ _ (by decide) _ _ (by decide +kernel) fc0
def fs1 : List (List Nat) := blks 64 2 13 0xb50543e118538697b1cf7bdb54b339903ce7fce5e1021dba2993ea4573c22ba472c5b45944a6a9b15e8237ae07f8ee8e3cb561d1cd3136c0be73f4170d12e32a842451f564919023651279ad693f0f1b4d551b2c9a76faddfc04676d997547e2efc1a0a977e0661abb3b760ea3aa3761594324987fc92358ff904b5122aa76092a43d48e2e31c4a37ac9e0c61ef6781012282b1462a9ab58ffd3d260e9bddcdd9ca7c227380c39dac6b7175c2a0364e76a0cc09a35c6a5d594396ee7369e3605e265526fb00a312629361c9a5530a5f7
def fr1 : List (List Nat) := blks 64 2 1 0x1b8849ddb4ec7f6883bde1f68407c9e4
theorem fc1 : eqLL (forsP O 12 1 1 8176196433515594 230 ids) (fs1 ++ fr1) = true := by krfl
theorem fp1 : ForsPart K.enc8 hf pkB skB P 8176196433515594 230 ids 1 1 fs1 fr1 := fors_part snd P (by decide) _ _ (by omega) (by omega) _ ids_lt _ _ (by decide) _ _ (by decide +kernel) fc1
def fs2 : List (List Nat) := blks 64 2 13 0xe5f4aa54802d90efbd6cc15dbd5880fb613e79138a1e095f6d084e396d904a88f010adbaf47d2b1a7368fa1253757aee9351c9320cd2f73fc93ad2f3aa09731ee2978b39ad1b9787bb67403d851c9546822b53a04ffa64917737f6a595c37953f185dcfc17e8f73197d2a99689f800bf5926eb471d7e89f8ab4fb203bbea4edd2a82235bbe4f66dc2bac75c3d74490caa4cfe9f1eb0daf6ce9b2876a2f9dbe6d3d2f13e9277bf2f70e1c6a1ddaba1347da996f25901a8e92e1993844d0dafa17230fd8c5f4dc2fc46d21832068606bd1
def fr2 : List (List Nat) := blks 64 2 1 0x7412ade019403daeadd84a8a177b79d3
theorem fc2 : eqLL (forsP O 12 2 1 8176196433515594 230 ids) (fs2 ++ fr2) = true := by krfl
theorem fp2 : ForsPart K.enc8 hf pkB skB P 8176196433515594 230 ids 2 1 fs2 fr2 := fors_part snd P (by decide) _ _ (by omega) (by omega) _ ids_lt _ _ (by decide) _ _ (by decide +kernel) fc2
def fs3 : List (List Nat) := blks 64 2 13 0x6bc149a8d035223389163b8c36fdd4d621da8f75ad16b89901b629513e40d463fb2c84ffd45e31c66f872ccef7ed17fc12e05923a29f4ae95ba41c0ece32accdf524070c9a2f9ae7e8aebb19304e01c78ae0801ca50a06f35a64df97d5cf691341fe75cdf99aa8be31b80e75ae6e74c7868f26f188172593bd7c4643b4169ff28f0977a67f27c968bbf9df9a3c08a7140299af131ffa15f7868fa1508096cdbf9b229148a90a129df3d214e12c6a66bf5dc1a030636d2b1a249cee2e32c66c02da283d051f09ef63024c431ef5a01a61
def fr3 : List (List Nat) := blks 64 2 1 0x5ca50f7fb06b10f5337833a89d0ad622
theorem fc3 : eqLL (forsP O 12 3 1 8176196433515594 230 ids) (fs3 ++ fr3) = true := by krfl
theorem fp3 : ForsPart K.enc8 hf pkB skB P 8176196433515594 230 ids 3 1 fs3 fr3 := fors_part snd P (by decide) _ _ (by omega) (by omega) _ ids_lt _ _ (by decide) _ _ (by decide +kernel) fc3
def fs4 : List (List Nat) := blks 64 2 13 0x9acadfa3ff90f29d87c5cd11e2caabbb8b2c3fc7774552f3157f1c3d682c0096ae8a7b3d60c05037e56e1bc3f9212aa951e57012c62cbf04f05421f6b3e272d0f0ecba7d8722e216465f853b3c0e7579ef9851dfcc2912fc76931b09b6f6d30858046f4b7ee7cb68c1c7c875bd96434e299157ee111e80c8a92d3e7ce28f9140885fdccea9fa526dc7996d14bb54f58824ce7b8215c21cf662b71b5a706e622ed533f327ca079bf20f9166280a623308e393a42f0333b8987cf98f865917325de2ebc54a716f5976b2b5e2f1d274cb4
def fr4 : List (List Nat) := blks 64 2 1 0x54ed6feaf3fc640db2068bcc610d06cf
theorem fc4 : eqLL (forsP O 12 4 1 8176196433515594 230 ids) (fs4 ++ fr4) = true := by krfl
theorem fp4 : ForsPart K.enc8 hf pkB skB P 8176196433515594 230 ids 4 1 fs4 fr4 := fors_part snd P (by decide) _ _ (by omega) (by omega) _ ids_lt _ _ (by decide) _ _ (by decide +kernel) fc4
def fs5 : List (List Nat) := blks 64 2 13 0x234ea0299b4bd3d452783c9fea9137c04e3bb73fa241bad67b405dda9b99cc5348d9f72a89ffcc1f0317deead5434e2e48bec6d41d77bac8d34bbe193339efe638e2498a2251ae69a420694aa940fc11e73fd45d439656c611ede0c01f3be3e6e18bf78791262a0aa404a2062269783eb5b973a2df59501d2e22191a8bd83773717d9eefbba5c270e417387e673915a9105dede8478e40a6f80060a9ac95bfe71da34fca27d132b0ee39956bc055f11b45594aca0d48df048b7744577ef6497cef671a5c8e8b3b7ad4425c9d47410585
def fr5 : List (List Nat) := blks 64 2 1 0x452de7ad5e4b3c569db9b235f92c1576
theorem fc5 : eqLL (forsP O 12 5 1 8176196433515594 230 ids) (fs5 ++ fr5) = true := by krfl
theorem fp5 : ForsPart K.enc8 hf pkB skB P 8176196433515594 230 ids 5 1 fs5 fr5 := fors_part snd P (by decide) _ _ (by omega) (by omega) _ ids_lt _ _ (by decide) _ _ (by decide +kernel) fc5
def fs6 : List (List Nat) := blks 64 2 13 0x5351f306b3e3d370d1dd19595d6cd694460f3d99a3193eb5c7cddecadb5c14fbafad2c2174a197d1754ffefc13ce565eea4e10fb04f800ccedb80fc9c55aa5e18d7da3c3d2c67c9231949fa0f21579ef5071d6ebabdb9cdc58545698ea5c7a4cfbee93c1ec35a2ff6244cc6afde165882b6dc693cca19a712e1135d6fb08d0118a065e9c88e5b9db2ced2d466b20b5e54e7fc025f4b54d1a223e8510c588d3ced3448d22b78a13d8376c2857cef6f8d5e9896aeaafe96fec75206cc19e5db3e726aa6fac8247365f28fd5a0da34c1773
def fr6 : List (List Nat) := blks 64 2 1 0x9a7e8fc0f2cb0a98f392e2f821925954
theorem fc6 : eqLL (forsP O 12 6 1 8176196433515594 230 ids) (fs6 ++ fr6) = true := by krfl
theorem fp6 : ForsPart K.enc8 hf pkB skB P 8176196433515594 230 ids 6 1 fs6 fr6 := fors_part snd P (by decide) _ _ (by omega) (by omega) _ ids_lt _ _ (by decide) _ _ (by decide +kernel) fc6
def fs7 : List (List Nat) := blks 64 2 13 0x632600265baaf5703470244be785fa220a480457e7dd217f32961c99092703f96e47b33c58dca2072e8ea77cbc1ff4743ae7215b4061382d96e1493bfe093031e1b4f903152d4ae5fdca09fbc200586512a1f3004abdd17977663c02999705f6688a9eec26f426fe8a05832bd954092a8bed7d67888da334ecf2e12cd2224f0a648e272578509cc71cb9e38aa46052e1148a172c5884c68f7a52b21f80c1e08c7169c54c3dd02836a8349c8e4d06da48200ae180c83610e5c55f1e78ef097c920c796dd496849bc06ce08fb4f124bd1a
def fr7 : List (List Nat) := blks 64 2 1 0x25fd6b451f09a8fa75e60796b7b26232
theorem fc7 : eqLL (forsP O 12 7 1 8176196433515594 230 ids) (fs7 ++ fr7) = true := by krfl
theorem fp7 : ForsPart K.enc8 hf pkB skB P 8176196433515594 230 ids 7 1 fs7 fr7 := fors_part snd P (by decide) _ _ (by omega) (by omega) _ ids_lt _ _ (by decide) _ _ (by decide +kernel) fc7
def fs8 : List (List Nat) := blks 64 2 13 0xb11c83e66ec053a348f62dbe02534b681d7bfb780c9eed5c7366d33dc7acd0644f7544018a66cd4d2170361a32fc185dbbff50d37d1f2d16dc745543c6a521d5ac66c0dfc97a51243f3616b6a3f5d8dfe3bfed6289592d4c7e6e50dd3a075a493e5a3621bfc4d54416adaf0ede23e79d2e6e500c1768f69d1a4660d545b1c46905c37be8e3a4b5ebef384a4a707d0e71a09dc858039a3604accfb26bce7a4251bd72ea399b6af16c6d54f8b64101859a43dd235d50ed550e322cddac7feb51c6af252db1ca9c02df448187c9245a437f
def fr8 : List (List Nat) := blks 64 2 1 0xbe7a3e4dfe7792d4b313b5e027a8db09
theorem fc8 : eqLL (forsP O 12 8 1 8176196433515594 230 ids) (fs8 ++ fr8) = true := by krfl
theorem fp8 : ForsPart K.enc8 hf pkB skB P 8176196433515594 230 ids 8 1 fs8 fr8 := fors_part snd P (by decide) _ _ (by omega) (by omega) _ ids_lt _ _ (by decide) _ _ (by decide +kernel) fc8
def fs9 : List (List Nat) := blks 64 2 13 0x3e46e518f2ea65788ed044ca5c726115c3193d1929e458916f70761d6baa4d5a3fb1a57683879db399eb785547d9fae7674ac584810cb67b94035873e5622a339ae9c5b9b98c74ec18c7adf0ad2b07d3eddb612fd51c6d89e628b8c3b8f17e0713fc4394665a47013d3250db14353a826f1062c0560356bdf0204a788b7213f85d33519d924ec26a3a83c06b099042885eb175656a6474dbc19308f3750db393de310c2c969245583a09ab38392b62c6d8aeeb49018927a90c031248259fd2d74eb0069dc7ee7673ae533066bce45a14
def fr9 : List (List Nat) := blks 64 2 1 0x70cb5e837416a1443d43ca10dcfb6bee
theorem fc9 : eqLL (forsP O 12 9 1 8176196433515594 230 ids) (fs9 ++ fr9) = true := by krfl
theorem fp9 : ForsPart K.enc8 hf pkB skB P 8176196433515594 230 ids 9 1 fs9 fr9 := fors_part snd P (by decide) _ _ (by omega) (by omega) _ ids_lt _ _ (by decide) _ _ (by decide +kernel) fc9
def fs10 : List (List Nat) := blks 64 2 13 0x9333b8809eb5011e30ec1754f9794a88bf4e74ba985de023506582a096ee96d6eb0caf03b63ea535ff85ed5aaa1b69b20c9428666543e777bd105f6f8dbea2e07f70681f55e2a0bf0b211324878e38d902a0cf39850cd82f8af5cdba8704ec2ad1cc5cedeb12fd8b768bbf207728b97ba4e8a5d27dae9c66a3ac20731b7e45b2b518d1922c116167f447748e35124dc04c5561f3386337d21105ec5200adc43bdcb73a4e727b9f39f9f5e483b13f9ae841bc2fac7687c5bd7f5e0bb0875d23adcc29fa474b851dc6db31ee5fc130a22b
def fr10 : List (List Nat) := blks 64 2 1 0xb77aa6a241dd41ebd4de013dfe8dcf6f
theorem fc10 : eqLL (forsP O 12 10 1 8176196433515594 230 ids) (fs10 ++ fr10) = true := by krfl
theorem fp10 : ForsPart K.enc8 hf pkB skB P 8176196433515594 230 ids 10 1 fs10 fr10 := fors_part snd P (by decide) _ _ (by omega) (by omega) _ ids_lt _ _ (by decide) _ _ (by decide +kernel) fc10
def fs11 : List (List Nat) := blks 64 2 13 0xb2da95b77f6a6850be383a89f25d347df79eed84fa14678393e2d00d9292784878ae78b049594360c7dd7eadc5fa4e95d0f62e4d28ba696864b458c4cd26d3184184b930d95c1c151cc45e8610377672dc67a87ca89f22066078e301ed83c0622c1358f66ac96958d23df68c686e097cd8617af15b2432badbf9362824980d6c85a718f9a1885e6f604a725ed48663d4040b010650547cdb903577014ccf3154184093848052c1a77c19ffb558ac663f37ea59aed322ce0bc802cc213431898a17cd32e32c4689bf35bc2216d6b934ab
def fr11 : List (List Nat) := blks 64 2 1 0xefd9d26b80022653a867589cc96fedc6
theorem fc11 : eqLL (forsP O 12 11 1 8176196433515594 230 ids) (fs11 ++ fr11) = true := by krfl
theorem fp11 : ForsPart K.enc8 hf pkB skB P 8176196433515594 230 ids 11 1 fs11 fr11 := fors_part snd P (by decide) _ _ (by omega) (by omega) _ ids_lt _ _ (by decide) _ _ (by decide +kernel) fc11
def fs12 : List (List Nat) := blks 64 2 13 0xa8e7cad69c55e6e31e1041670f0d5dc7b926012f2a35941d4778815f1fb0b5f18c458125b1999de16e9d713ef9977673e593beedbbb47cc4c19877bec699bde2b5d039f7a987ae00240828c1e96a5ed3bdd43db455dc2fab60af721581acf95c1041041571bdf88f60bef7d4b2ea710e494aae5725f25d109b620230920f07f10b1b1324ede2bbe3be074933ce03cd2fca74438c3c88da03aca0558f6a6cb5aa45b3db8a7cdb0d3d6d71ee5cdaa1eba56c935cb6e4bf06abe3918b8211cb78486827a7c61bd92f11acf576dd7d7d7879
def fr12 : List (List Nat) := blks 64 2 1 0xc8fedd2dafef18bb80db03c63c245d02
theorem fc12 : eqLL (forsP O 12 12 1 8176196433515594 230 ids) (fs12 ++ fr12) = true := by krfl
theorem fp12 : ForsPart K.enc8 hf pkB skB P 8176196433515594 230 ids 12 1 fs12 fr12 := fors_part snd P (by decide) _ _ (by omega) (by omega) _ ids_lt _ _ (by decide) _ _ (by decide +kernel) fc12
def fs13 : List (List Nat) := blks 64 2 13 0x2a328919ac2b9f0b90eeef7bff9505ec62391437d913aa880ac570101362465aea45405ec65302a39566df5bcc99e944a174ef5f6c244540037d65275a3ba747537146e56e9fa7decb05e8517e687aaed47c275b6987154cfe55320a2370198fe4306b84d4f3834d2099490851988a6bce2bd946c825bfbd5e3a549a78913a48132dc6082faa74fb1829f591a0ce74f68f8354d5b1f965cd55d2eee120d0972d56f420e7a3c6a88283b8a69ee58843c2e35cf621e89eddbaf418fe32733b4b27b8d177d0b073e698008518ea2b0e6db
def fr13 : List (List Nat) := blks 64 2 1 0x60f416b5b4f036d8d39d1deaf4252d98
theorem fc13 : eqLL (forsP O 12 13 1 8176196433515594 230 ids) (fs13 ++ fr13) = true := by krfl
theorem fp13 : ForsPart K.enc8 hf pkB skB P 8176196433515594 230 ids 13 1 fs13 fr13 := fors_part snd P (by decide) _ _ (by omega) (by omega) _ ids_lt _ _ (by decide) _ _ (by decide +kernel) fc13
theorem fa1 : ForsPart K.enc8 hf pkB skB P 8176196433515594 230 ids 0 2 (fs0 ++ fs1) (fr0 ++ fr1) := fors_app P _ _ _ 0 1 1 _ _ _ _ fp0 fp1
theorem fa2 : ForsPart K.enc8 hf pkB skB P 8176196433515594 230 ids 0 3 ((fs0 ++ fs1) ++ fs2) ((fr0 ++ fr1) ++ fr2) := fors_app P _ _ _ 0 2 1 _ _ _ _ fa1 fp2
theorem fa3 : ForsPart K.enc8 hf pkB skB P 8176196433515594 230 ids 0 4 (((fs0 ++ fs1) ++ fs2) ++ fs3) (((fr0 ++ fr1) ++ fr2) ++ fr3) := fors_app P _ _ _ 0 3 1 _ _ _ _ fa2 fp3
theorem fa4 : ForsPart K.enc8 hf pkB skB P 8176196433515594 230 ids 0 5 ((((fs0 ++ fs1) ++ fs2) ++ fs3) ++ fs4) ((((fr0 ++ fr1) ++ fr2) ++ fr3) ++ fr4) := fors_app P _ _ _ 0 4 1 _ _ _ _ fa3 fp4
theorem fa5 : ForsPart K.enc8 hf pkB skB P 8176196433515594 230 ids 0 6 (((((fs0 ++ fs1) ++ fs2) ++ fs3) ++ fs4) ++ fs5) (((((fr0 ++ fr1) ++ fr2) ++ fr3) ++ fr4) ++ fr5) := fors_app P _ _ _ 0 5 1 _ _ _ _ fa4 fp5
theorem fa6 : ForsPart K.enc8 hf pkB skB P 8176196433515594 230 ids 0 7 ((((((fs0 ++ fs1) ++ fs2) ++ fs3) ++ fs4) ++ fs5) ++ fs6) ((((((fr0 ++ fr1) ++ fr2) ++ fr3) ++ fr4) ++ fr5) ++ fr6) := fors_app P _ _ _ 0 6 1 _ _ _ _ fa5 fp6
theorem fa7 : ForsPart K.enc8 hf pkB skB P 8176196433515594 230 ids 0 8 (((((((fs0 ++ fs1) ++ fs2) ++ fs3) ++ fs4) ++ fs5) ++ fs6) ++ fs7) (((((((fr0 ++ fr1) ++ fr2) ++ fr3) ++ fr4) ++ fr5) ++ fr6) ++ fr7) := fors_app P _ _ _ 0 7 1 _ _ _ _ fa6 fp7
theorem fa8 : ForsPart K.enc8 hf pkB skB P 8176196433515594 230 ids 0 9 ((((((((fs0 ++ fs1) ++ fs2) ++ fs3) ++ fs4) ++ fs5) ++ fs6) ++ fs7) ++ fs8) ((((((((fr0 ++ fr1) ++ fr2) ++ fr3) ++ fr4) ++ fr5) ++ fr6) ++ fr7) ++ fr8) := fors_app P _ _ _ 0 8 1 _ _ _ _ fa7 fp8
theorem fa9 : ForsPart K.enc8 hf pkB skB P 8176196433515594 230 ids 0 10 (((((((((fs0 ++ fs1) ++ fs2) ++ fs3) ++ fs4) ++ fs5) ++ fs6) ++ fs7) ++ fs8) ++ fs9) (((((((((fr0 ++ fr1) ++ fr2) ++ fr3) ++ fr4) ++ fr5) ++ fr6) ++ fr7) ++ fr8) ++ fr9) := fors_app P _ _ _ 0 9 1 _ _ _ _ fa8 fp9
theorem fa10 : ForsPart K.enc8 hf pkB skB P 8176196433515594 230 ids 0 11 ((((((((((fs0 ++ fs1) ++ fs2) ++ fs3) ++ fs4) ++ fs5) ++ fs6) ++ fs7) ++ fs8) ++ fs9) ++ fs10) ((((((((((fr0 ++ fr1) ++ fr2) ++ fr3) ++ fr4) ++ fr5) ++ fr6) ++ fr7) ++ fr8) ++ fr9) ++ fr10) := fors_app P _ _ _ 0 10 1 _ _ _ _ fa9 fp10
theorem fa11 : ForsPart K.enc8 hf pkB skB P 8176196433515594 230 ids 0 12 (((((((((((fs0 ++ fs1) ++ fs2) ++ fs3) ++ fs4) ++ fs5) ++ fs6) ++ fs7) ++ fs8) ++ fs9) ++ fs10) ++ fs11) (((((((((((fr0 ++ fr1) ++ fr2) ++ fr3) ++ fr4) ++ fr5) ++ fr6) ++ fr7) ++ fr8) ++ fr9) ++ fr10) ++ fr11) := fors_app P _ _ _ 0 11 1 _ _ _ _ fa10 fp11
theorem fa12 : ForsPart K.enc8 hf pkB skB P 8176196433515594 230 ids 0 13 ((((((((((((fs0 ++ fs1) ++ fs2) ++ fs3) ++ fs4) ++ fs5) ++ fs6) ++ fs7) ++ fs8) ++ fs9) ++ fs10) ++ fs11) ++ fs12) ((((((((((((fr0 ++ fr1) ++ fr2) ++ fr3) ++ fr4) ++ fr5) ++ fr6) ++ fr7) ++ fr8) ++ fr9) ++ fr10) ++ fr11) ++ fr12) := fors_app P _ _ _ 0 12 1 _ _ _ _ fa11 fp12
theorem fa13 : ForsPart K.enc8 hf pkB skB P 8176196433515594 230 ids 0 14 (((((((((((((fs0 ++ fs1) ++ fs2) ++ fs3) ++ fs4) ++ fs5) ++ fs6) ++ fs7) ++ fs8) ++ fs9) ++ fs10) ++ fs11) ++ fs12) ++ fs13) (((((((((((((fr0 ++ fr1) ++ fr2) ++ fr3) ++ fr4) ++ fr5) ++ fr6) ++ fr7) ++ fr8) ++ fr9) ++ fr10) ++ fr11) ++ fr12) ++ fr13) := fors_app P _ _ _ 0 13 1 _ _ _ _ fa12 fp13
def m0 : List Nat := [0xa442876720874b13, 0xb2397be3358eb32a]
theorem fk : forsPk P hf skB pkB 8176196433515594 230 = K.enc8 m0 := fors_pk snd P (by decide) _ _ (by omega) (by omega) ids _ _ fa13 (by decide +kernel) (by decide +kernel) _ (by decide +kernel)

/-! ## Hypertree -/


end Kat.Shake_128s
