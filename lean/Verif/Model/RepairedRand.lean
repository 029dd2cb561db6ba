import Verif.Spec

/-!
# `Rand::rand`, repaired

The nine field files have

    for i in 0..4 {
        out.0[i] = rng.gen_range(0, MODULUS.0[i]);
    }

(`mod_e221_3.rs:754-756`, `mod_e222_117.rs:751-753`, `mod_e251_9.rs:789-791`, `mod_e255_19.rs:841-843`, `mod_e382_105.rs:1020-1022`,
`mod_e383_187.rs:1103-1105`, `mod_e414_17.rs:1077-1079`, `mod_e511_187.rs:1371-1373`, `mod_e521_1.rs:1397-1399`), so that no word
ever has the greatest value (C24).  The edit replaces the bounds by powers of two, and adds `out.normalize();` (with the
`normalize` of the repository):

    for i in 0..4 {
        out.0[i] = rng.gen_range(0, 1 << (if i < 3 { 58 } else { 47 }));
    }

    out.normalize();
-/

namespace Verif.Repaired

/-- The bound for word `i`: `1 << 58`, and `1 << 47` for the last one (in `mod_e221_3.rs`). -/
def randBound (f : Fld) (i : Nat) : Int := 2 ^ (if i + 1 < f.k then f.L else f.tb)

/-- `Rand::rand`, repaired.  The generator gives the answer to the `i`-th call with upper bound `hi`. -/
def rand (f : Fld) (pr : Profile) (rng : Nat → Int → Int) : Res Elem :=
  f.code.normalize pr ((List.range f.k).map fun i => rng i (randBound f i))

end Verif.Repaired
