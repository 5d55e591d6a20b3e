import Verif.Proof.Sign
import Verif.Proof.ByteOrder
/-!
# What a hash call leaves in its iterator

Whatever the iterator held before, a complete hash computation leaves in it a value that depends on the hashed data only.
-/
namespace Model
open Spec (Adrs)

namespace Sha256

/-- The last update of `final_trunc` fills the block. -/
theorem update_fill (a b : Ctx) (M p : Bytes) (ha : Abs0 a M) (hb : Abs0 b M) (hbig : a.big = b.big) (hc : a.count = b.count) (h56 : M.length % 64 = 56)
    (hp : p.length = 8) : update a p = update b p := by
  unfold update
  rw [hp]
  unfold updateLoop
  have na : a.num = 56 := by rw [ha.num, h56]
  have nb : b.num = 56 := by rw [hb.num, h56]
  have hd : a.data.take 56 = b.data.take 56 := by
    have h1 := ha.data; have h2 := hb.data
    rw [h56] at h1 h2; rw [h1, h2]
  simp only [na, nb]
  rw [if_neg (by omega), if_neg (by omega), show min (usub 64 56) p.length = 8 by rw [hp]; rfl, if_neg (by omega), if_neg (by omega),
    rdSlice_zero (by omega), ok_bind, ok_bind, List.take_of_length_le (by omega),
    wrSlice_ok (by simp [ha.dlen, hp]), wrSlice_ok (by simp [hb.dlen, hp]), ok_bind, ok_bind, hd,
    List.drop_of_length_le (show a.data.length ≤ 56 + p.length by simp [ha.dlen, hp]),
    List.drop_of_length_le (show b.data.length ≤ 56 + p.length by simp [hb.dlen, hp]),
    if_neg (by omega), if_neg (by omega)]
  have hh : a.h = b.h := by rw [ha.h, hb.h]
  obtain ⟨ah, ac, an, ad, ab⟩ := a
  obtain ⟨bh, bc, bn, bd, bb⟩ := b
  simp only at hh hc hbig
  subst hh hc hbig
  rfl

/-- Finalising depends on the absorbed bytes and the byte order only, the state left behind included. -/
theorem final_same (digest : Bytes) (a b : Ctx) (M : Bytes) (n : Nat) (ha : Abs a M) (hb : Abs b M) (hbig : a.big = b.big) :
    final_trunc digest a n = final_trunc digest b n := by
  unfold final_trunc
  have hc : a.count = b.count := by rw [ha.count, hb.count]
  rw [ts_ull_to_bytes_ok _ _ _ _ (by simp), ts_ull_to_bytes_ok _ _ _ _ (by simp), hc]
  simp only [ok_bind, List.take_zero, List.nil_append]
  rw [List.drop_of_length_le (by simp), List.append_nil]
  obtain ⟨a1, e1, h1⟩ := update_ok a M [0x80] ha
  obtain ⟨b1, f1, k1⟩ := update_ok b M [0x80] hb
  rw [e1, f1, ok_bind, ok_bind]
  have hn : a1.num = b1.num := by rw [h1.num, k1.num]
  have hb1 : a1.big = b1.big := by rw [update_big e1, update_big f1, hbig]
  have key : ∀ (a2 b2 : Ctx) (N : Bytes), Abs a2 N → Abs b2 N → a2.big = b2.big → N.length % 64 ≤ 56 →
      (do
        let data ← wrSlice a2.data a2.num (List.replicate (usub 56 a2.num) 0)
        let ctx ← update { a2 with data := data, num := 56 } (Spec.toByte b.count 8)
        let digest ← loop (fun i d => do
          let hi ← rd ctx.h.toList i
          ts_ull_to_bytes d (4 * i) hi.toNat 4) (n / 4) 0 digest
        (.ok (digest, ctx) : C (Bytes × Ctx))) =
      (do
        let data ← wrSlice b2.data b2.num (List.replicate (usub 56 b2.num) 0)
        let ctx ← update { b2 with data := data, num := 56 } (Spec.toByte b.count 8)
        let digest ← loop (fun i d => do
          let hi ← rd ctx.h.toList i
          ts_ull_to_bytes d (4 * i) hi.toNat 4) (n / 4) 0 digest
        (.ok (digest, ctx) : C (Bytes × Ctx))) := by
    intro a2 b2 N h2 k2 hb2 h56
    obtain ⟨d, e3, h3⟩ := zero_fill a2 N h2.toAbs0 h56
    obtain ⟨d', f3, k3⟩ := zero_fill b2 N k2.toAbs0 h56
    rw [e3, f3, ok_bind, ok_bind]
    have hl : (N ++ List.replicate (56 - N.length % 64) (0 : UInt8)).length % 64 = 56 := by
      simp only [List.length_append, List.length_replicate]; omega
    rw [update_fill _ _ _ (Spec.toByte b.count 8) h3 k3 hb2 (by show a2.count = b2.count; rw [h2.count, k2.count]) hl (length_toByte _ _)]
  by_cases hgt : a1.num > 56
  · rw [if_pos hgt, if_pos (by omega)]
    obtain ⟨a2, e2, h2⟩ := update_ok a1 _ (List.replicate 8 0) h1
    obtain ⟨b2, f2, k2⟩ := update_ok b1 _ (List.replicate 8 0) k1
    rw [e2, f2]
    refine key a2 b2 _ h2 k2 (by rw [update_big e2, update_big f2, hb1]) ?_
    have := h1.num
    simp only [List.length_append, List.length_cons, List.length_nil, List.length_replicate] at this ⊢
    omega
  · rw [if_neg hgt, if_neg (by omega)]
    exact key a1 b1 _ h1 k1 hb1 (by have := h1.num; omega)

end Sha256

namespace Sha512

/-- The last update of `final_trunc` fills the block. -/
theorem update_fill (a b : Ctx) (M p : Bytes) (ha : Abs0 a M) (hb : Abs0 b M) (hbig : a.big = b.big) (hc : a.count = b.count) (h112 : M.length % 128 = 112)
    (hp : p.length = 16) : update a p = update b p := by
  unfold update
  rw [hp]
  unfold updateLoop
  have na : a.num = 112 := by rw [ha.num, h112]
  have nb : b.num = 112 := by rw [hb.num, h112]
  have hd : a.data.take 112 = b.data.take 112 := by
    have h1 := ha.data; have h2 := hb.data
    rw [h112] at h1 h2; rw [h1, h2]
  simp only [na, nb]
  rw [if_neg (by omega), if_neg (by omega), show min (usub 128 112) p.length = 16 by rw [hp]; rfl, if_neg (by omega), if_neg (by omega),
    rdSlice_zero (by omega), ok_bind, ok_bind, List.take_of_length_le (by omega),
    wrSlice_ok (by simp [ha.dlen, hp]), wrSlice_ok (by simp [hb.dlen, hp]), ok_bind, ok_bind, hd,
    List.drop_of_length_le (show a.data.length ≤ 112 + p.length by simp [ha.dlen, hp]),
    List.drop_of_length_le (show b.data.length ≤ 112 + p.length by simp [hb.dlen, hp]),
    if_neg (by omega), if_neg (by omega)]
  have hh : a.h = b.h := by rw [ha.h, hb.h]
  obtain ⟨ah, ac, an, ad, ab⟩ := a
  obtain ⟨bh, bc, bn, bd, bb⟩ := b
  simp only at hh hc hbig
  subst hh hc hbig
  rfl

/-- Finalising depends on the absorbed bytes and the byte order only, the state left behind included. -/
theorem final_same (digest : Bytes) (a b : Ctx) (M : Bytes) (n : Nat) (ha : Abs a M) (hb : Abs b M) (hbig : a.big = b.big) :
    final_trunc digest a n = final_trunc digest b n := by
  unfold final_trunc
  have hc : a.count = b.count := by rw [ha.count, hb.count]
  rw [ts_ull_to_bytes_ok _ _ _ _ (by simp), ts_ull_to_bytes_ok _ _ _ _ (by simp), hc]
  simp only [ok_bind, List.take_zero, List.nil_append]
  rw [List.drop_of_length_le (by simp), List.append_nil]
  obtain ⟨a1, e1, h1⟩ := update_ok a M [0x80] ha
  obtain ⟨b1, f1, k1⟩ := update_ok b M [0x80] hb
  rw [e1, f1, ok_bind, ok_bind]
  have hn : a1.num = b1.num := by rw [h1.num, k1.num]
  have hb1 : a1.big = b1.big := by rw [update_big e1, update_big f1, hbig]
  have key : ∀ (a2 b2 : Ctx) (N : Bytes), Abs a2 N → Abs b2 N → a2.big = b2.big → N.length % 128 ≤ 112 →
      (do
        let data ← wrSlice a2.data a2.num (List.replicate (usub 112 a2.num) 0)
        let ctx ← update { a2 with data := data, num := 112 } (Spec.toByte b.count 16)
        let digest ← loop (fun i d => do
          let hi ← rd ctx.h.toList i
          ts_ull_to_bytes d (8 * i) hi.toNat 8) (n / 8) 0 digest
        (.ok (digest, ctx) : C (Bytes × Ctx))) =
      (do
        let data ← wrSlice b2.data b2.num (List.replicate (usub 112 b2.num) 0)
        let ctx ← update { b2 with data := data, num := 112 } (Spec.toByte b.count 16)
        let digest ← loop (fun i d => do
          let hi ← rd ctx.h.toList i
          ts_ull_to_bytes d (8 * i) hi.toNat 8) (n / 8) 0 digest
        (.ok (digest, ctx) : C (Bytes × Ctx))) := by
    intro a2 b2 N h2 k2 hb2 h112
    obtain ⟨d, e3, h3⟩ := zero_fill a2 N h2.toAbs0 h112
    obtain ⟨d', f3, k3⟩ := zero_fill b2 N k2.toAbs0 h112
    rw [e3, f3, ok_bind, ok_bind]
    have hl : (N ++ List.replicate (112 - N.length % 128) (0 : UInt8)).length % 128 = 112 := by
      simp only [List.length_append, List.length_replicate]; omega
    rw [update_fill _ _ _ (Spec.toByte b.count 16) h3 k3 hb2 (by show a2.count = b2.count; rw [h2.count, k2.count]) hl (length_toByte _ _)]
  by_cases hgt : a1.num > 112
  · rw [if_pos hgt, if_pos (by omega)]
    obtain ⟨a2, e2, h2⟩ := update_ok a1 _ (List.replicate 16 0) h1
    obtain ⟨b2, f2, k2⟩ := update_ok b1 _ (List.replicate 16 0) k1
    rw [e2, f2]
    refine key a2 b2 _ h2 k2 (by rw [update_big e2, update_big f2, hb1]) ?_
    have := h1.num
    simp only [List.length_append, List.length_cons, List.length_nil, List.length_replicate] at this ⊢
    omega
  · rw [if_neg hgt, if_neg (by omega)]
    exact key a1 b1 _ h1 k1 hb1 (by have := h1.num; omega)

end Sha512


namespace Shake

/-- Initialising a sponge forgets what it held. -/
theorem inc_init_same (s : Ctx) (hs : s.length = 26) : inc_init s = .ok (List.replicate 26 0) := by
  unfold inc_init
  rw [loop_eq' (fun i => List.replicate i 0 ++ s.drop i) 25 s (by simp)]
  · rw [ok_bind, wr_ok _ (by simp; omega)]
    obtain ⟨A, t, rfl⟩ := lanes_of s hs
    rfl
  · intro i hi
    rw [wr_ok _ (by simp; omega)]
    congr 1
    rw [List.set_append_right _ _ (by simp), List.drop_eq_getElem_cons (show i < s.length by omega),
      List.length_replicate, Nat.sub_self, List.set_cons_zero, List.replicate_succ']
    simp

end Shake

/-- `c` with another value of the scratch iterator. -/
def Ctx.si (c : Ctx) (s : TIter) : Ctx := { c with small_iter := s }

theorem Env.as256_big (E : Env) (t : TIter) : (E.as256 t).big = E.cfg.arch.big := by cases t <;> rfl
theorem Env.as512_big (E : Env) (t : TIter) : (E.as512 t).big = E.cfg.arch.big := by cases t <;> rfl

theorem init256_big {E : Env} {mem : Mem} {c c' : Sha256.Ctx} {sc : Ctx} (h : ts_sha256_init_ctx E mem c sc = .ok c') : c'.big = c.big := by
  unfold ts_sha256_init_ctx at h
  split at h
  · cases h; rfl
  · obtain ⟨x, _, h⟩ := bind_ok_inv h
    obtain ⟨c1, e1, h⟩ := bind_ok_inv h
    have key : ∀ (k i : Nat) (c1 c' : Sha256.Ctx), loop (fun _ ctx => Sha256.update ctx [0]) k i c1 = .ok c' → c'.big = c1.big := by
      intro k
      induction k with
      | zero => intro i c1 c' h; cases h; rfl
      | succ k ih =>
        intro i c1 c' h
        unfold loop at h
        obtain ⟨c2, e2, h⟩ := bind_ok_inv h
        rw [ih _ _ _ h, Sha256.update_big e2]
    rw [key _ _ _ _ h, Sha256.update_big e1]
    rfl

section
variable {S : Sess} {m1 m2 : Mem} {c : Ctx} {s : TIter}

theorem Good.withSi (g : Good S c) (h : WfIter s) : Good S (c.si s) :=
  ⟨⟨g.adr, g.buf, g.auth, g.x, h, g.bi⟩, g.ps, g.pk, g.pre⟩

/-- Finalising depends on the absorbed data only. -/
theorem final_t_same {t t' : TIter} {a : Adrs} {M out : Bytes} (g : Good S c) (hf : S.fam ≠ .shake)
    (h : IterRep S t a M) (h' : IterRep S t' a M) : call_final_t S.E out t' c = call_final_t S.E out t c := by
  have is := S.is_fam
  unfold call_final_t
  unfold IterRep at *
  rw [g.ps, is.final_t]
  cases hf' : S.fam with
  | shake => exact absurd hf' hf
  | sha2L1 =>
    rw [hf'] at h h'
    obtain ⟨s1, rfl, h⟩ := h
    obtain ⟨s2, rfl, h'⟩ := h'
    simp only [ts_sha2_L1_final_t_simple, Env.as256]
    rw [Sha256.final_same out (s2.on S.E.cfg.arch.big) (s1.on S.E.cfg.arch.big) _ _ (h'.on _) (h.on _) rfl]
  | sha2L35 =>
    rw [hf'] at h h'
    obtain ⟨s1, rfl, h⟩ := h
    obtain ⟨s2, rfl, h'⟩ := h'
    simp only [ts_sha2_L35_final_t_simple, Env.as512]
    rw [Sha512.final_same out (s2.on S.E.cfg.arch.big) (s1.on S.E.cfg.arch.big) _ _ (h'.on _) (h.on _) rfl]

/-- Starting a hash in a given iterator does not look at the scratch iterator, nor at the secret part of the key. -/
theorem init_t_same {t : TIter} (g : Good S c) (p1 : S.MemPub m1) (p2 : S.MemPub m2) :
    call_init_t S.E m2 t (c.si s) = call_init_t S.E m1 t c := by
  have e1 := pubSeed_ok S m1 p1
  have e2 := pubSeed_ok S m2 p2
  unfold call_init_t Ctx.si
  simp only [ts_shake256_init_t_simple, ts_sha2_L1_init_t_simple, ts_sha2_L35_init_t_simple, ts_sha256_init_ctx, ts_sha512_init_ctx,
    g.pk, ctx_n g, e1, e2]

/-- Starting a hash in two different iterators. -/
theorem init_t_shake {t t' : TIter} (g : Good S c) (p1 : S.MemPub m1) (hf : S.fam = .shake) (w : WfIter t) (w' : WfIter t') :
    call_init_t S.E m1 t' c = call_init_t S.E m1 t c := by
  have is := S.is_fam
  unfold call_init_t
  rw [g.ps, is.init_t, hf]
  simp only [ts_shake256_init_t_simple]
  rw [Shake.inc_init_same _ (S.E.asShake_len t w), Shake.inc_init_same _ (S.E.asShake_len t' w')]

/-- Combining two nodes leaves a context that does not depend on the scratch iterator before. -/
theorem combine_same {a : Adrs} {out x y : Bytes} (g : Good S c) (w : WfIter s) (p1 : S.MemPub m1) (p2 : S.MemPub m2)
    (ha : S.AdrIs c.adr a) (hx : S.n ≤ x.length) (hy : S.n ≤ y.length) :
    combine S.E m2 out x y (c.si s) = combine S.E m1 out x y c := by
  have hn := n_le (S := S)
  unfold combine
  by_cases hf : S.fam = .shake
  · rw [init_t_same (m1 := m1) g p1 p2, init_t_shake g p1 hf g.si (show WfIter (c.si s).small_iter from w)]
    rfl
  · rw [init_t_same (m1 := m1) g p1 p2]
    obtain ⟨t1, e1, h1⟩ := call_init_t_ok g p1 ha g.si
    obtain ⟨t2, e2, h2⟩ := call_next_t_ok g h1 (by simp) hx
    obtain ⟨t3, e3, h3⟩ := call_next_t_ok g h2 (by simp; omega) hy
    obtain ⟨u1, f1, k1⟩ := call_init_t_ok g p1 ha (show WfIter (c.si s).small_iter from w)
    obtain ⟨u2, f2, k2⟩ := call_next_t_ok g k1 (by simp) hx
    obtain ⟨u3, f3, k3⟩ := call_next_t_ok g k2 (by simp; omega) hy
    rw [f1, e1, ok_bind, ok_bind]
    show (call_next_t S.E u1 x c >>= _) = _
    rw [f2, e2, ok_bind, ok_bind]
    show (call_next_t S.E u2 y c >>= _) = _
    rw [f3, e3, ok_bind, ok_bind]
    show (call_final_t S.E out u3 c >>= _) = _
    rw [final_t_same g hf h3 k3]
    rfl

/-- So does one application of `F`. -/
theorem call_f_same {a : Adrs} {out inp : Bytes} (g : Good S c) (w : WfIter s) (p1 : S.MemPub m1) (p2 : S.MemPub m2)
    (ha : S.AdrIs c.adr a) (hi : S.n ≤ inp.length) :
    call_f S.E m2 out inp (c.si s) = call_f S.E m1 out inp c := by
  have is := S.is_fam
  have hp : c.ps.f = S.fam := by rw [g.ps, is.pf]
  have hp' : (c.si s).ps.f = S.fam := hp
  unfold call_f
  rw [hp, hp']
  have sha : S.fam ≠ .shake → ts_sha2_f_simple S.E m2 out inp (c.si s) = ts_sha2_f_simple S.E m1 out inp c := by
    intro hf
    have g' := g.withSi w
    unfold ts_sha2_f_simple
    obtain ⟨s0, e0, h0⟩ := init256_ok g p1 hf _ (S.E.as256_len _ g.si)
    obtain ⟨u0, f0, k0⟩ := init256_ok g' p2 hf _ (S.E.as256_len _ g'.si)
    simp only [ctx_n g, ctx_n g']
    rw [e0, f0, ok_bind, ok_bind, show (c.si s).adr = c.adr from rfl, adr22 (sha2_of rfl hf) g.adr ha, ok_bind, ok_bind]
    obtain ⟨s1, e1, h1⟩ := Sha256.update_ok s0 _ a.encc h0
    obtain ⟨u1, f1, k1⟩ := Sha256.update_ok u0 _ a.encc k0
    rw [e1, f1, ok_bind, ok_bind, rdSlice_zero hi, ok_bind, ok_bind]
    obtain ⟨s2, e2, h2⟩ := Sha256.update_ok s1 _ (inp.take S.n) h1
    obtain ⟨u2, f2, k2⟩ := Sha256.update_ok u1 _ (inp.take S.n) k1
    have hbig : u2.big = s2.big := by
      rw [Sha256.update_big f2, Sha256.update_big f1, init256_big f0, Sha256.update_big e2, Sha256.update_big e1, init256_big e0,
        Env.as256_big, Env.as256_big]
    rw [e2, f2, ok_bind, ok_bind, Sha256.final_same out u2 s2 _ _ k2 h2 hbig]
    rfl
  cases hf : S.fam with
  | shake =>
    simp only [ts_shake256_f_simple, ts_shake256_init_t_simple]
    rw [Shake.inc_init_same _ (S.E.asShake_len _ g.si), show (c.si s).small_iter = s from rfl, Shake.inc_init_same _ (S.E.asShake_len s w)]
    rw [show (c.si s).public_key = S.pk from g.pk, g.pk, show (c.si s).ps.n = S.n from ctx_n (g.withSi w), ctx_n g, pubSeed_ok S m1 p1, pubSeed_ok S m2 p2]
    rfl
  | sha2L1 => exact sha (by rw [hf]; decide)
  | sha2L35 => exact sha (by rw [hf]; decide)

/-- Hashing the message leaves nothing of what the iterator held. -/
theorem hash_msg_same {out rnd root M : Bytes} {msg len : Nat} (g : Good S c) (w : WfIter s) (p1 : S.MemPub m1) (p2 : S.MemPub m2)
    (r1 : S.MemRoot m1 root) (r2 : S.MemRoot m2 root) (q1 : m1.Has msg M) (q2 : m2.Has msg M) (hrnd : S.n ≤ rnd.length) :
    call_hash_msg S.E m2 out len rnd msg M.length (c.si s) = call_hash_msg S.E m1 out len rnd msg M.length c := by
  have is := S.is_fam
  have hp : c.ps.hash_msg = S.fam := by rw [g.ps, is.hash_msg]
  have hp' : (c.si s).ps.hash_msg = S.fam := hp
  have g' := g.withSi w
  unfold call_hash_msg
  rw [hp, hp']
  cases hf : S.fam with
  | shake =>
    simp only [ts_shake256_hash_msg, g.pk, g'.pk, ctx_n g, ctx_n g', pubSeed_ok S m1 p1, pubSeed_ok S m2 p2, pubRoot_ok r1, pubRoot_ok r2,
      q1.read, q2.read]
    rw [Shake.inc_init_same _ (S.E.asShake_len _ g.si), Shake.inc_init_same _ (S.E.asShake_len _ g'.si)]
    rfl
  | sha2L1 =>
    simp only [ts_sha2_L1_hash_msg, g.pk, g'.pk, ctx_n g, ctx_n g', pubSeed_ok S m1 p1, pubSeed_ok S m2 p2, pubRoot_ok r1, pubRoot_ok r2,
      q1.read, q2.read, rdSlice_zero hrnd, ok_bind]
    obtain ⟨s1, e1, h1⟩ := Sha256.update_ok _ _ (rnd.take S.n) (Sha256.init_abs _ (S.E.as256_len _ g.si))
    obtain ⟨s2, e2, h2⟩ := Sha256.update_ok _ _ S.pkSeed h1
    obtain ⟨s2', e2', h2'⟩ := Sha256.update_ok _ _ root h2
    obtain ⟨s3, e3, h3⟩ := Sha256.update_ok _ _ M h2'
    obtain ⟨t1, f1, k1⟩ := Sha256.update_ok _ _ (rnd.take S.n) (Sha256.init_abs _ (S.E.as256_len _ g'.si))
    obtain ⟨t2, f2, k2⟩ := Sha256.update_ok _ _ S.pkSeed k1
    obtain ⟨t2', f2', k2'⟩ := Sha256.update_ok _ _ root k2
    obtain ⟨t3, f3, k3⟩ := Sha256.update_ok _ _ M k2'
    have hbig : t3.big = s3.big := by
      rw [Sha256.update_big f3, Sha256.update_big f2', Sha256.update_big f2, Sha256.update_big f1,
        Sha256.update_big e3, Sha256.update_big e2', Sha256.update_big e2, Sha256.update_big e1]
      show (S.E.as256 _).big = (S.E.as256 _).big
      rw [Env.as256_big, Env.as256_big]
    simp only [e1, e2, e2', e3, f1, f2, f2', f3, ok_bind, Sha256.final]
    refine bind_congr fun d => ?_
    rw [Sha256.final_same d t3 s3 _ _ k3 h3 hbig]
    rfl
  | sha2L35 =>
    simp only [ts_sha2_L35_hash_msg, g.pk, g'.pk, ctx_n g, ctx_n g', pubSeed_ok S m1 p1, pubSeed_ok S m2 p2, pubRoot_ok r1, pubRoot_ok r2,
      q1.read, q2.read, rdSlice_zero hrnd, ok_bind]
    obtain ⟨s1, e1, h1⟩ := Sha512.update_ok _ _ (rnd.take S.n) (Sha512.init_abs _ (S.E.as512_len _ g.si))
    obtain ⟨s2, e2, h2⟩ := Sha512.update_ok _ _ S.pkSeed h1
    obtain ⟨s2', e2', h2'⟩ := Sha512.update_ok _ _ root h2
    obtain ⟨s3, e3, h3⟩ := Sha512.update_ok _ _ M h2'
    obtain ⟨t1, f1, k1⟩ := Sha512.update_ok _ _ (rnd.take S.n) (Sha512.init_abs _ (S.E.as512_len _ g'.si))
    obtain ⟨t2, f2, k2⟩ := Sha512.update_ok _ _ S.pkSeed k1
    obtain ⟨t2', f2', k2'⟩ := Sha512.update_ok _ _ root k2
    obtain ⟨t3, f3, k3⟩ := Sha512.update_ok _ _ M k2'
    have hbig : t3.big = s3.big := by
      rw [Sha512.update_big f3, Sha512.update_big f2', Sha512.update_big f2, Sha512.update_big f1,
        Sha512.update_big e3, Sha512.update_big e2', Sha512.update_big e2, Sha512.update_big e1]
      show (S.E.as512 _).big = (S.E.as512 _).big
      rw [Env.as512_big, Env.as512_big]
    simp only [e1, e2, e2', e3, f1, f2, f2', f3, ok_bind, Sha512.final]
    refine bind_congr fun d => ?_
    rw [Sha512.final_same d t3 s3 _ _ k3 h3 hbig]
    rfl

end

end Model
