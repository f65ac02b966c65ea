import Mathlib.Tactic.Attr.Register

/-- Lemmas that evaluate source texts. -/
register_simp_attr pysrc
