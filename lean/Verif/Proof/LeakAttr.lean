import Lean
/-!
# A simp set for the leakage model
-/
/-- Rules that push `res` inwards. -/
register_simp_attr lk

/-- Functions that call none of the hash functions of a parameter set. -/
register_simp_attr fr

/-- Functions that call nothing. -/
register_simp_attr qt
