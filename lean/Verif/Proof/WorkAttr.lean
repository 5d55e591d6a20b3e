import Lean
/-!
# A simp set for steps that neither call a hash function nor a compression function
-/
/-- Functions that do neither. -/
register_simp_attr idl
