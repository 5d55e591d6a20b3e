import Verif.Kat.Keccak2
import Verif.Kat.Ops256
/-!
# The packed hash functions of the SHAKE sets
-/
noncomputable section
namespace Kat.K
open Spec Model.Shake

/-! ## Addresses -/

/-- The bytes of 32-bit words in reverse order. -/
def bs (I x : Nat) : Nat :=
  Nat.add (Nat.add (Nat.mul (Nat.land x (Nat.mul 255 I)) 16777216) (Nat.mul (Nat.land (Nat.shiftRight x 8) (Nat.mul 255 I)) 65536))
    (Nat.add (Nat.mul (Nat.land (Nat.shiftRight x 16) (Nat.mul 255 I)) 256) (Nat.land (Nat.shiftRight x 24) (Nat.mul 255 I)))

theorem bs_one (x : Nat) : bs 1 x = x % 256 * 16777216 + x / 256 % 256 * 65536 + (x / 65536 % 256 * 256 + x / 16777216 % 256) := by
  have e : ∀ y : Nat, y &&& 255 = y % 256 := fun y => Nat.and_two_pow_sub_one_eq_mod y 8
  show (x &&& 255) * 16777216 + ((x >>> 8) &&& 255) * 65536 + (((x >>> 16) &&& 255) * 256 + ((x >>> 24) &&& 255)) = _
  rw [e, e, e, e, Nat.shiftRight_eq_div_pow, Nat.shiftRight_eq_div_pow, Nat.shiftRight_eq_div_pow]

theorem bs_lt (x : Nat) : bs 1 x < 2 ^ 32 := by rw [bs_one]; omega

variable {L : List α}

theorem bs_pk (w : α → Nat) (h : ∀ x, w x < 2 ^ 32) : bs (pk 64 L fun _ => 1) (pk 64 L w) = pk 64 L fun x => bs 1 (w x) := by
  unfold bs
  rw [const_pk]
  have h' : ∀ x ∈ L, w x < 2 ^ 64 := fun x _ => by have := h x; omega
  have e : ∀ n, n ≤ 56 → Nat.land (Nat.shiftRight (pk 64 L w) n) (pk 64 L fun _ => 255) = pk 64 L fun x => (w x >>> n) &&& 255 := fun n hn =>
    pk_shr h' (m := 8) (by omega) (fun _ _ => by omega) (by omega)
  have e0 : Nat.land (pk 64 L w) (pk 64 L fun _ => 255) = pk 64 L fun x => w x &&& 255 := pk_land h' (fun _ _ => by omega)
  rw [e 8 (by omega), e 16 (by omega), e 24 (by omega), e0]
  show (pk 64 L fun x => w x &&& 255) * 16777216 + (pk 64 L fun x => (w x >>> 8) &&& 255) * 65536 + ((pk 64 L fun x => (w x >>> 16) &&& 255) * 256 + pk 64 L fun x => (w x >>> 24) &&& 255) = _
  rw [pk_mul, pk_mul, pk_mul, pk_add, pk_add, pk_add]
  rfl

theorem ofNat_congr {a b : Nat} (h : a % 256 = b % 256) : UInt8.ofNat a = UInt8.ofNat b := by
  apply UInt8.toNat_inj.1
  simpa using h

theorem le_bs (x : Nat) : le 4 (bs 1 x) = toByte x 4 := by
  have h := bs_one x
  rw [show x / 65536 = x / 256 / 256 by omega, show x / 16777216 = x / 256 / 256 / 256 by omega] at h
  generalize bs 1 x = v at h
  simp only [le, toByte, List.nil_append, List.cons_append, List.cons.injEq, and_true]
  have h1 : x / 256 % 256 < 256 := Nat.mod_lt _ (by omega)
  have h2 : x / 256 / 256 % 256 < 256 := Nat.mod_lt _ (by omega)
  have h3 : x / 256 / 256 / 256 % 256 < 256 := Nat.mod_lt _ (by omega)
  have h0 : x % 256 < 256 := Nat.mod_lt _ (by omega)
  have k3 : UInt8.ofNat (x / 256 / 256 / 256) = UInt8.ofNat (x / 256 / 256 / 256 % 256) := ofNat_congr (by omega)
  have k2 : UInt8.ofNat (x / 256 / 256) = UInt8.ofNat (x / 256 / 256 % 256) := ofNat_congr (by omega)
  have k1 : UInt8.ofNat (x / 256) = UInt8.ofNat (x / 256 % 256) := ofNat_congr (by omega)
  have k0 : UInt8.ofNat x = UInt8.ofNat (x % 256) := ofNat_congr (by omega)
  rw [k3, k2, k1, k0]
  clear k3 k2 k1 k0
  generalize x / 256 / 256 / 256 % 256 = d at *
  generalize x / 256 / 256 % 256 = c at *
  generalize x / 256 % 256 = b at *
  generalize x % 256 = a at *
  refine ⟨ofNat_congr ?_, ofNat_congr ?_, ofNat_congr ?_, ofNat_congr ?_⟩ <;> omega

theorem le_two (a b : Nat) (h : a < 2 ^ 32) : le 8 (a + b * 4294967296) = le 4 a ++ le 4 b := by
  simp only [le, List.nil_append, List.cons_append, List.cons.injEq, and_true]
  refine ⟨ofNat_congr ?_, ofNat_congr ?_, ofNat_congr ?_, ofNat_congr ?_, ofNat_congr ?_, ofNat_congr ?_, ofNat_congr ?_, ofNat_congr ?_⟩ <;> omega

/-- The words of an address. -/
def adrN (layer tree type w1 w2 w3 : Nat) : List Nat :=
  [bs 1 layer, bs 1 (tree / 4294967296) + bs 1 (tree % 4294967296) * 4294967296, bs 1 type + bs 1 w1 * 4294967296, bs 1 w2 + bs 1 w3 * 4294967296]

theorem adrN_lt (layer tree type w1 w2 w3 : Nat) : ∀ w ∈ adrN layer tree type w1 w2 w3, w < 2 ^ 64 := by
  have h := bs_lt
  have := h layer; have := h (tree / 4294967296); have := h (tree % 4294967296); have := h type; have := h w1; have := h w2; have := h w3
  intro w hw
  simp only [adrN, List.mem_cons, List.not_mem_nil, or_false] at hw
  rcases hw with rfl | rfl | rfl | rfl <;> omega

theorem adrN_bytes (layer tree type w1 w2 w3 : Nat) (ht : tree < 2 ^ 64) : enc8 (adrN layer tree type w1 w2 w3) = Adrs.enc ⟨layer, tree, type, w1, w2, w3⟩ := by
  unfold adrN Adrs.enc
  rw [enc8_cons, enc8_cons, enc8_cons, enc8_cons, show enc8 [] = [] from rfl, List.append_nil, le_two _ _ (bs_lt _), le_two _ _ (bs_lt _), le_two _ _ (bs_lt _),
    show le 8 (bs 1 layer) = le 4 (bs 1 layer) ++ le 4 0 from by have := le_two (bs 1 layer) 0 (bs_lt _); rw [Nat.zero_mul, Nat.add_zero] at this; exact this]
  simp only [le_bs]
  have e : toByte tree 12 = le 4 0 ++ (toByte (tree / 4294967296) 4 ++ toByte (tree % 4294967296) 4) := by
    rw [show le 4 0 = toByte 0 4 from by decide, toByte_append, toByte_append]
    apply toByte_congr
    rw [show (256 : Nat) ^ 4 = 4294967296 from rfl, show (256 : Nat) ^ (4 + 4) = 18446744073709551616 from rfl, show (256 : Nat) ^ 12 = 79228162514264337593543950336 from rfl]
    omega
  rw [e]
  simp only [List.append_assoc]

/-- The words of the addresses. -/
def adrP (I layer tree type A1 A2 A3 : Nat) : List Nat :=
  [Nat.mul (bs 1 layer) I, Nat.mul (Nat.add (bs 1 (Nat.div tree 4294967296)) (Nat.mul (bs 1 (Nat.mod tree 4294967296)) 4294967296)) I,
   Nat.add (Nat.mul (bs 1 type) I) (Nat.mul (bs I A1) 4294967296), Nat.add (bs I A2) (Nat.mul (bs I A3) 4294967296)]

theorem adrP_eq (layer tree type : Nat) (w1 w2 w3 : α → Nat) (h1 : ∀ x, w1 x < 2 ^ 32) (h2 : ∀ x, w2 x < 2 ^ 32) (h3 : ∀ x, w3 x < 2 ^ 32) :
    ∃ us : List (α → Nat), adrP (pk 64 L fun _ => 1) layer tree type (pk 64 L w1) (pk 64 L w2) (pk 64 L w3) = us.map (pk 64 L) ∧
      ∀ x, us.map (fun u => u x) = adrN layer tree type (w1 x) (w2 x) (w3 x) := by
  refine ⟨[fun _ => bs 1 layer, fun _ => bs 1 (tree / 4294967296) + bs 1 (tree % 4294967296) * 4294967296, fun x => bs 1 type + bs 1 (w1 x) * 4294967296,
    fun x => bs 1 (w2 x) + bs 1 (w3 x) * 4294967296], ?_, fun x => rfl⟩
  unfold adrP
  rw [const_pk, const_pk, const_pk, bs_pk w1 h1, bs_pk w2 h2, bs_pk w3 h3]
  simp only [List.map_cons, List.map_nil]
  show [_, _, (pk 64 L fun _ => bs 1 type) + (pk 64 L fun x => bs 1 (w1 x)) * 4294967296, (pk 64 L fun x => bs 1 (w2 x)) + (pk 64 L fun x => bs 1 (w3 x)) * 4294967296] = _
  rw [pk_mul, pk_mul, pk_add, pk_add]
  rfl

/-! ## Hashes -/

/-- What the padding adds to `l` words. -/
def tailW (l : Nat) : List Nat :=
  (Nat.beq (Nat.mod l 17) 16).rec (31 :: (List.replicate (Nat.sub 15 (Nat.mod l 17)) 0 ++ [9223372036854775808])) [9223372036854775839]

theorem padW_tail (ws : List Nat) : padW ws = ws ++ tailW ws.length := rfl

theorem tailW_lt (l : Nat) : ∀ w ∈ tailW l, w < 2 ^ 64 := by
  unfold tailW
  cases Nat.beq (Nat.mod l 17) 16 with
  | true => intro w hw; have := List.mem_singleton.1 hw; omega
  | false =>
    intro w hw
    rcases List.mem_cons.1 hw with h | h
    · omega
    · rcases List.mem_append.1 h with h | h
      · have := (List.mem_replicate.1 h).2; omega
      · have := List.mem_singleton.1 h; omega

/-- The state after `q` blocks. -/
def outP (I q : Nat) (ws : List Nat) : List Nat := absorb I q ws 0 0 0 0 0 0 0 0 0 0 0 0 0 0 0 0 0 0 0 0 0 0 0 0 0 fun a0 a1 a2 a3 a4 a5 a6 a7 a8 a9 a10 a11 a12 a13 a14 a15 a16 a17 a18 a19 a20 a21 a22 a23 a24 => [a0, a1, a2, a3, a4, a5, a6, a7, a8, a9, a10, a11, a12, a13, a14, a15, a16, a17, a18, a19, a20, a21, a22, a23, a24]

/-- The words of the messages. -/
def msgP (seed : List Nat) (I layer tree type A1 A2 A3 : Nat) (X : List Nat) : List Nat :=
  (seed.map fun s => Nat.mul s I) ++ (adrP I layer tree type A1 A2 A3 ++ X)

/-- Hashes of the seed, addresses and values. -/
def blockP (seed : List Nat) (nw I layer tree type A1 A2 A3 : Nat) (X : List Nat) : List Nat :=
  forceL (msgP seed I layer tree type A1 A2 A3 X) fun ws =>
  forceL ((tailW ws.length).map fun s => Nat.mul s I) fun t =>
  (outP I (Nat.succ (Nat.div ws.length 17)) (ws ++ t)).take nw

/-- The state after `q` blocks for one message. -/
def out (q : Nat) (ws : List Nat) : Lanes := sabsorb (Model.Shake.rounds 24) q (ws.map UInt64.ofNat) A0

theorem outP_eq (q : Nat) (us : List (α → Nat)) (hq : us.length = 17 * q) (hu : ∀ u ∈ us, ∀ x, u x < 2 ^ 64) (r : α → Lanes) (hr : ∀ x, r x = out q (us.map fun u => u x)) :
    outP (pk 64 L fun _ => 1) q (us.map (pk 64 L)) = [pw L fun x => (r x).Aba, pw L fun x => (r x).Abe, pw L fun x => (r x).Abi, pw L fun x => (r x).Abo, pw L fun x => (r x).Abu, pw L fun x => (r x).Aga, pw L fun x => (r x).Age, pw L fun x => (r x).Agi, pw L fun x => (r x).Ago, pw L fun x => (r x).Agu, pw L fun x => (r x).Aka, pw L fun x => (r x).Ake, pw L fun x => (r x).Aki, pw L fun x => (r x).Ako, pw L fun x => (r x).Aku, pw L fun x => (r x).Ama, pw L fun x => (r x).Ame, pw L fun x => (r x).Ami, pw L fun x => (r x).Amo, pw L fun x => (r x).Amu, pw L fun x => (r x).Asa, pw L fun x => (r x).Ase, pw L fun x => (r x).Asi, pw L fun x => (r x).Aso, pw L fun x => (r x).Asu] := by
  have e : us.map (pk 64 L) = (us.map fun u x => UInt64.ofNat (u x)).map (pw L) := by
    rw [List.map_map]
    refine List.map_congr_left fun u h => ?_
    show _ = pk 64 L fun x => (UInt64.ofNat (u x)).toNat
    exact pk_congr fun x _ => (Nat.mod_eq_of_lt (hu u h x)).symm
  have er : r = fun x => sabsorb (Model.Shake.rounds 24) q ((us.map fun u x => UInt64.ofNat (u x)).map fun f => f x) A0 := by
    funext x
    rw [hr, out, List.map_map, List.map_map]; rfl
  have := absorb_pw (L := L) q (us.map fun u x => UInt64.ofNat (u x)) (by rw [List.length_map, hq]) (fun _ => A0) fun a0 a1 a2 a3 a4 a5 a6 a7 a8 a9 a10 a11 a12 a13 a14 a15 a16 a17 a18 a19 a20 a21 a22 a23 a24 => [a0, a1, a2, a3, a4, a5, a6, a7, a8, a9, a10, a11, a12, a13, a14, a15, a16, a17, a18, a19, a20, a21, a22, a23, a24]
  rw [← e] at this
  rw [er]
  refine Eq.trans ?_ this
  unfold outP
  congr 1 <;> exact zero_pw

theorem length_tailW (l : Nat) : l + (tailW l).length = 17 * (l / 17 + 1) := by
  have := length_padW (List.replicate l 0)
  rw [padW_tail, List.length_append, List.length_replicate] at this
  exact this

theorem blockP_rep (O : Ops) (hW : O.W = 64) (hB : O.B = 64) (n : Nat) (hn : n = 8 * O.nw) (hn2 : n ≤ 136) (seed : List Nat) (hs : ∀ s ∈ seed, s < 2 ^ 64) {α : Type} (l : Nat)
    (L : List α) (layer tree type : Nat) (w1 w2 w3 : α → Nat) (X : List Nat) (v : α → Bytes) (ht : tree < 2 ^ 64)
    (h1 : ∀ x ∈ L, w1 x < 2 ^ 32) (h2 : ∀ x ∈ L, w2 x < 2 ^ 32) (h3 : ∀ x ∈ L, w3 x < 2 ^ 32) (hX : Reps O enc8 l L X v) :
    Reps O enc8 1 L (blockP seed O.nw (pk O.W L fun _ => 1) layer tree type (pk O.W L w1) (pk O.W L w2) (pk O.W L w3) X) fun x =>
      Spec.Keccak.shake256 (enc8 seed ++ Adrs.enc ⟨layer, tree, type, w1 x, w2 x, w3 x⟩ ++ v x) n := by
  obtain ⟨us, a, b, rfl, d⟩ := hX
  have m : ∀ w : α → Nat, ∀ x, w x % 2 ^ 32 < 2 ^ 32 := fun w x => Nat.mod_lt _ (by omega)
  have c : ∀ w : α → Nat, (∀ x ∈ L, w x < 2 ^ 32) → pk O.W L w = pk O.W L fun x => w x % 2 ^ 32 := fun w h => pk_congr fun x hx => (Nat.mod_eq_of_lt (h x hx)).symm
  rw [c w1 h1, c w2 h2, c w3 h3]
  unfold blockP
  rw [forceL_eq, forceL_eq]
  unfold msgP
  rw [hW]
  rw [hB] at b
  obtain ⟨as, e1, e2⟩ := adrP_eq (L := L) layer tree type (fun x => w1 x % 2 ^ 32) (fun x => w2 x % 2 ^ 32) (fun x => w3 x % 2 ^ 32) (m w1) (m w2) (m w3)
  rw [e1]
  have cs : ∀ ss : List Nat, (ss.map fun s => Nat.mul s (pk 64 L fun _ => 1)) = (ss.map fun s (_ : α) => s).map (pk 64 L) := fun ss => by
    rw [List.map_map]; exact List.map_congr_left fun s _ => const_pk s
  rw [cs, cs, ← List.map_append, ← List.map_append, ← List.map_append, List.length_map]
  generalize hms : (seed.map fun s (_ : α) => s) ++ (as ++ us) = ms
  have hmx : ∀ x, ms.map (fun u => u x) = seed ++ (adrN layer tree type (w1 x % 2 ^ 32) (w2 x % 2 ^ 32) (w3 x % 2 ^ 32) ++ us.map fun u => u x) := fun x => by
    rw [← hms, List.map_append, List.map_append, e2, List.map_map]
    congr 1; exact List.map_id' _
  have hmb : ∀ u ∈ ms, ∀ x, u x < 2 ^ 64 := fun u hu x => by
    have hm : u x ∈ ms.map (fun u => u x) := List.mem_map_of_mem hu
    rw [hmx] at hm
    rcases List.mem_append.1 hm with h | h
    · exact hs _ h
    · rcases List.mem_append.1 h with h | h
      · exact adrN_lt _ _ _ _ _ _ _ h
      · obtain ⟨u', hu', h⟩ := List.mem_map.1 h
        rw [← h]; exact b u' hu' x
  have hlen : (ms ++ (tailW ms.length).map fun s (_ : α) => s).length = 17 * (ms.length / 17 + 1) := by
    rw [List.length_append, List.length_map, length_tailW]
  have hall : ∀ x, (ms ++ (tailW ms.length).map fun s (_ : α) => s).map (fun u => u x) = padW (ms.map fun u => u x) := fun x => by
    rw [padW_tail, List.map_append, List.map_map, List.length_map]
    congr 1; exact List.map_id' _
  obtain ⟨r, hrx⟩ : ∃ r : α → Lanes, ∀ x, r x = out (ms.length / 17 + 1) (padW (ms.map fun u => u x)) := ⟨_, fun _ => rfl⟩
  have ho := outP_eq (L := L) (ms.length / 17 + 1) (ms ++ (tailW ms.length).map fun s (_ : α) => s) hlen (fun u hu x => by
    rcases List.mem_append.1 hu with h | h
    · exact hmb u h x
    · obtain ⟨s, hs', rfl⟩ := List.mem_map.1 h
      exact tailW_lt _ _ hs') r (fun x => by rw [hall, hrx])
  rw [show Nat.succ (Nat.div ms.length 17) = ms.length / 17 + 1 from rfl, ho]
  refine ⟨List.take O.nw [fun x => (r x).Aba.toNat, fun x => (r x).Abe.toNat, fun x => (r x).Abi.toNat, fun x => (r x).Abo.toNat, fun x => (r x).Abu.toNat, fun x => (r x).Aga.toNat, fun x => (r x).Age.toNat, fun x => (r x).Agi.toNat, fun x => (r x).Ago.toNat, fun x => (r x).Agu.toNat, fun x => (r x).Aka.toNat, fun x => (r x).Ake.toNat, fun x => (r x).Aki.toNat, fun x => (r x).Ako.toNat, fun x => (r x).Aku.toNat, fun x => (r x).Ama.toNat, fun x => (r x).Ame.toNat, fun x => (r x).Ami.toNat, fun x => (r x).Amo.toNat, fun x => (r x).Amu.toNat, fun x => (r x).Asa.toNat, fun x => (r x).Ase.toNat, fun x => (r x).Asi.toNat, fun x => (r x).Aso.toNat, fun x => (r x).Asu.toNat], ?_, ?_, ?_, fun x hx => ?_⟩
  · rw [List.length_take, Nat.mul_one]
    exact Nat.min_eq_left (show O.nw ≤ 25 by omega)
  · rw [hB]
    intro u hu x
    have hu := List.mem_of_mem_take hu
    simp only [List.mem_cons, List.not_mem_nil, or_false] at hu
    rcases hu with rfl | rfl | rfl | rfl | rfl | rfl | rfl | rfl | rfl | rfl | rfl | rfl | rfl | rfl | rfl | rfl | rfl | rfl | rfl | rfl | rfl | rfl | rfl | rfl | rfl <;> exact u64 _
  · rw [hW, List.map_take]; rfl
  · rw [List.map_take]
    have hm : padK (enc8 seed ++ Adrs.enc ⟨layer, tree, type, w1 x, w2 x, w3 x⟩ ++ v x) = enc8 (padW (ms.map fun u => u x)) := by
      rw [← pad_words, hmx, enc8_append, enc8_append, d x hx, adrN_bytes _ _ _ _ _ _ ht, Nat.mod_eq_of_lt (h1 x hx), Nat.mod_eq_of_lt (h2 x hx), Nat.mod_eq_of_lt (h3 x hx), List.append_assoc]
    simp only
    rw [shake_words n O.nw hn hn2 _ (padW (ms.map fun u => u x)) (ms.length / 17 + 1) (by rw [length_padW, List.length_map]) (fun w hw => by
      rw [padW_tail] at hw
      rcases List.mem_append.1 hw with h | h
      · obtain ⟨u, hu, rfl⟩ := List.mem_map.1 h
        exact hmb u hu x
      · exact tailW_lt _ _ h) hm]
    show _ = enc8 (((out _ _).toList.map UInt64.toNat).take O.nw)
    rw [← hrx]
    rfl

/-- `seed` and `sk` are the words of the seeds. -/
def ops (nw : Nat) (seed sk : List Nat) : Ops where
  W := 64
  B := 64
  le := Nat.le_refl _
  nw := nw
  F I layer tree type A1 A2 A3 X := blockP seed nw I layer tree type A1 A2 A3 X
  T I layer tree type A1 A2 A3 X := blockP seed nw I layer tree type A1 A2 A3 X
  prf I layer tree type A1 A2 A3 := blockP seed nw I layer tree type A1 A2 A3 (sk.map fun s => Nat.mul s I)

theorem sound (n nw : Nat) (hn : n = 8 * nw) (hn2 : n ≤ 32) (seed sk : List Nat) (hs : ∀ s ∈ seed, s < 2 ^ 64) (hk : sk.length = nw) (hb : ∀ s ∈ sk, s < 2 ^ 64) :
    Sound (ops nw seed sk) enc8 (shakeFns n) (enc8 seed) (enc8 sk) where
  nil := rfl
  app := enc8_append
  F L layer tree type w1 w2 w3 X v _ ht _ h1 h2 h3 hX := blockP_rep (ops nw seed sk) rfl rfl n hn (by omega) seed hs 1 L layer tree type w1 w2 w3 X v ht h1 h2 h3 hX
  T l L layer tree type w1 w2 w3 X v _ _ ht _ h1 h2 h3 hX := blockP_rep (ops nw seed sk) rfl rfl n hn (by omega) seed hs l L layer tree type w1 w2 w3 X v ht h1 h2 h3 hX
  prf L layer tree type w1 w2 w3 _ ht _ h1 h2 h3 := blockP_rep (ops nw seed sk) rfl rfl n hn (by omega) seed hs 1 L layer tree type w1 w2 w3 _ _ ht h1 h2 h3
    (S256.const_rep (ops nw seed sk) sk hk hb L)

/-! ## One message -/

/-- A word from its bytes, the lowest first. -/
def unle : Bytes → Nat
  | [] => 0
  | b :: l => Nat.add b.toNat (Nat.mul 256 (unle l))

theorem le_unle (b : Bytes) : le b.length (unle b) = b := by
  induction b with
  | nil => rfl
  | cons x l ih =>
    have e : unle (x :: l) = x.toNat + 256 * unle l := rfl
    have hx := x.toNat_lt
    rw [List.length_cons, le, e, show (x.toNat + 256 * unle l) / 256 = unle l by omega, ih]
    congr 1
    apply UInt8.toNat_inj.1
    rw [UInt8.toNat_ofNat']
    omega

theorem unle_lt (b : Bytes) : unle b < 256 ^ b.length := by
  induction b with
  | nil => decide
  | cons x l ih =>
    have e : unle (x :: l) = x.toNat + 256 * unle l := rfl
    have hx := x.toNat_lt
    rw [e, List.length_cons, Nat.pow_succ]
    omega

/-- The words of `q` times eight bytes. -/
def unwords : Nat → Bytes → List Nat
  | 0, _ => []
  | q + 1, B => unle (B.take 8) :: unwords q (B.drop 8)

theorem unwords_ok (q : Nat) (B : Bytes) (h : B.length = 8 * q) : enc8 (unwords q B) = B ∧ (unwords q B).length = q ∧ ∀ w ∈ unwords q B, w < 2 ^ 64 := by
  induction q generalizing B with
  | zero =>
    have : B = [] := List.length_eq_zero_iff.1 (by omega)
    subst this; exact ⟨rfl, rfl, fun _ h => by simp [unwords] at h⟩
  | succ q ih =>
    have h8 : (B.take 8).length = 8 := by rw [List.length_take]; omega
    obtain ⟨i1, i2, i3⟩ := ih (B.drop 8) (by rw [List.length_drop]; omega)
    refine ⟨?_, by rw [unwords, List.length_cons, i2], fun w hw => ?_⟩
    · rw [unwords, enc8_cons, i1]
      have := le_unle (B.take 8)
      rw [h8] at this
      rw [this, List.take_append_drop]
    · rcases List.mem_cons.1 hw with h | h
      · have := unle_lt (B.take 8)
        rw [h8] at this
        rw [h]; exact this
      · exact i3 w h

theorem length_padK8 (M : Bytes) : ∃ q, (padK M).length = 8 * (17 * q) := by
  refine ⟨M.length / 136 + 1, ?_⟩
  unfold padK
  rw [List.length_append]
  split
  · simp only [List.length_cons, List.length_nil]; omega
  · simp only [List.length_append, List.length_cons, List.length_nil, List.length_replicate]; omega

/-- At most 136 bytes of SHAKE256, on numbers. -/
def shakeF (M : Bytes) (n : Nat) : Bytes :=
  (fun B : Bytes => (fun q => (enc8 (outP 1 (Nat.div q 17) (unwords q B))).take n) (Nat.div B.length 8)) (padK M)

theorem pw_one (u : Unit → UInt64) : pw [()] u = (u ()).toNat := by
  unfold pw; rw [pk, pk]; omega

theorem shakeF_eq (M : Bytes) (n : Nat) (hn : n ≤ 136) : Spec.Keccak.shake256 M n = shakeF M n := by
  obtain ⟨q, hq⟩ := length_padK8 M
  obtain ⟨i1, i2, i3⟩ := unwords_ok (17 * q) (padK M) hq
  unfold shakeF
  simp only
  rw [hq, show Nat.div (8 * (17 * q)) 8 = 17 * q by show 8 * (17 * q) / 8 = 17 * q; omega, show Nat.div (17 * q) 17 = q by show 17 * q / 17 = q; omega]
  have h136 := shake_words 136 17 rfl (Nat.le_refl _) M (unwords (17 * q) (padK M)) q i2 i3 i1.symm
  have e : Spec.Keccak.shake256 M n = (Spec.Keccak.shake256 M 136).take n := by
    rw [shake_take _ _ hn, shake_take _ _ (Nat.le_refl _), List.take_take, Nat.min_eq_left hn]
  have ho := outP_eq (L := [()]) q ((unwords (17 * q) (padK M)).map fun w _ => w) (by rw [List.length_map, i2]) (fun u hu x => by
    obtain ⟨w, hw, rfl⟩ := List.mem_map.1 hu
    exact i3 w hw) (fun _ => out q (unwords (17 * q) (padK M))) (fun x => by rw [List.map_map]; congr 1; exact (List.map_id' _).symm)
  rw [List.map_map] at ho
  have e1 : (unwords (17 * q) (padK M)).map ((pk 64 [()]) ∘ fun w _ => w) = unwords (17 * q) (padK M) := by
    refine Eq.trans (List.map_congr_left fun w h => ?_) (List.map_id _)
    show pk 64 [()] (fun _ => w) = w
    rw [pk, pk]; omega
  rw [e1, show (pk 64 [()] fun _ => 1) = 1 from rfl] at ho
  simp only [pw_one] at ho
  rw [e, h136, ho, ← take_enc8, List.take_take, Nat.min_eq_left (by omega)]
  rfl

theorem toByte_bs (x : Nat) : toByte (bs 1 x) 4 = le 4 x := by
  have h := bs_one x
  rw [show x / 65536 = x / 256 / 256 by omega, show x / 16777216 = x / 256 / 256 / 256 by omega] at h
  generalize bs 1 x = v at h
  simp only [le, toByte, List.nil_append, List.cons_append, List.cons.injEq, and_true]
  have h1 : x / 256 % 256 < 256 := Nat.mod_lt _ (by omega)
  have h2 : x / 256 / 256 % 256 < 256 := Nat.mod_lt _ (by omega)
  have h3 : x / 256 / 256 / 256 % 256 < 256 := Nat.mod_lt _ (by omega)
  have h0 : x % 256 < 256 := Nat.mod_lt _ (by omega)
  have k3 : UInt8.ofNat (x / 256 / 256 / 256) = UInt8.ofNat (x / 256 / 256 / 256 % 256) := ofNat_congr (by omega)
  have k2 : UInt8.ofNat (x / 256 / 256) = UInt8.ofNat (x / 256 / 256 % 256) := ofNat_congr (by omega)
  have k1 : UInt8.ofNat (x / 256) = UInt8.ofNat (x / 256 % 256) := ofNat_congr (by omega)
  have k0 : UInt8.ofNat x = UInt8.ofNat (x % 256) := ofNat_congr (by omega)
  rw [k3, k2, k1, k0]
  clear k3 k2 k1 k0
  generalize x / 256 / 256 / 256 % 256 = d at *
  generalize x / 256 / 256 % 256 = c at *
  generalize x / 256 % 256 = b at *
  generalize x % 256 = a at *
  refine ⟨ofNat_congr ?_, ofNat_congr ?_, ofNat_congr ?_, ofNat_congr ?_⟩ <;> omega

/-- The words of the bytes, the highest byte first. -/
def conv (ws : List Nat) : List Nat := ws.flatMap fun w => [bs 1 (Nat.mod w 4294967296), bs 1 (Nat.div w 4294967296)]

theorem enc8_conv (ws : List Nat) : enc8 ws = S256.enc4 (conv ws) := by
  induction ws with
  | nil => rfl
  | cons w ws ih =>
    rw [enc8_cons, ih]
    show _ = S256.enc4 ([bs 1 (w % 4294967296), bs 1 (w / 4294967296)] ++ conv ws)
    rw [S256.enc4_append]
    congr 1
    show _ = toByte (bs 1 (w % 4294967296)) 4 ++ (toByte (bs 1 (w / 4294967296)) 4 ++ [])
    rw [List.append_nil, toByte_bs, toByte_bs]
    have e := le_two (w % 4294967296) (w / 4294967296) (Nat.mod_lt _ (by omega))
    rw [show w % 4294967296 + w / 4294967296 * 4294967296 = w by omega] at e
    exact e

end Kat.K
