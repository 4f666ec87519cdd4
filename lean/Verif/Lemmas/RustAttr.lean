import Lean

/-! The sets of lemmas with which programs are evaluated. -/

/-- Evaluation of programs -/
register_simp_attr rust

/-- Evaluation of the functions of the packets -/
register_simp_attr exec
