import Verif.Model.Field

/-!
# Mod_e251_9

Verbatim function bodies and constants of `/repo/src/field/mod_e251_9.rs`
(struct with 5 words; `C_VAL = 9` at line 41; `carry_out` at line 132:
`self.0[4] >> 27`).
-/

namespace Verif.Fields.E251_9

/-- `ZERO`, /repo/src/field/mod_e251_9.rs:44-44. -/
def ZERO : Elem :=
  [0, 0, 0, 0, 0]

/-- `ONE`, /repo/src/field/mod_e251_9.rs:47-47. -/
def ONE : Elem :=
  [1, 0, 0, 0, 0]

/-- `M_ONE`, /repo/src/field/mod_e251_9.rs:50-53. -/
def M_ONE : Elem :=
  [0x00fffffffffffff6, 0x00ffffffffffffff, 0x00ffffffffffffff, 0x00ffffffffffffff,
   0x0000000007ffffff]

/-- `MODULUS`, /repo/src/field/mod_e251_9.rs:56-59. -/
def MODULUS : Elem :=
  [0x00fffffffffffff7, 0x00ffffffffffffff, 0x00ffffffffffffff, 0x00ffffffffffffff,
   0x0000000007ffffff]

/-- `CURVE1174_D`, /repo/src/field/mod_e251_9.rs:64-67. -/
def CURVE1174_D : Elem :=
  [0x00fffffffffffb61, 0x00ffffffffffffff, 0x00ffffffffffffff, 0x00ffffffffffffff,
   0x0000000007ffffff]

/-- `CURVE1174_BASE_X`, /repo/src/field/mod_e251_9.rs:71-74. -/
def CURVE1174_BASE_X : Elem :=
  [0x00123f27bce29eda, 0x00d96a492ecd6516, 0x00e7c029a190c021, 0x00ea308c479343ae,
   0x00000000037fbb0c]

/-- `CURVE1174_BASE_Y`, /repo/src/field/mod_e251_9.rs:78-81. -/
def CURVE1174_BASE_Y : Elem :=
  [0x00ccb1bf9b46360e, 0x00dee2af3f976ba4, 0x001169840e0c4fe2, 0x00d47fb7cc665684,
   0x0000000006b72f82]

/-- `CURVE1174_ORDER`, /repo/src/field/mod_e251_9.rs:85-88. -/
def CURVE1174_ORDER : Elem :=
  [0x0044d45fd166c971, 0x0065c4dfd3073489, 0x00fffffffffff779, 0x00ffffffffffffff,
   0x0000000001ffffff]

/-- `AddAssign<&Self>::add_assign`, /repo/src/field/mod_e251_9.rs:157-186. -/
def addP : Prog := rust_prog% 9 4 27 "
        let a0 = self.0[0];
        let a1 = self.0[1];
        let a2 = self.0[2];
        let a3 = self.0[3];
        let a4 = self.0[4] & 0x0000000007ffffff;

        let b0 = rhs.0[0];
        let b1 = rhs.0[1];
        let b2 = rhs.0[2];
        let b3 = rhs.0[3];
        let b4 = rhs.0[4] & 0x0000000007ffffff;

        let cin = self.carry_out() + rhs.carry_out();
        let s0 = a0 + b0 + (cin * C_VAL);
        let c0 = s0 >> 56;
        let s1 = a1 + b1 + c0;
        let c1 = s1 >> 56;
        let s2 = a2 + b2 + c1;
        let c2 = s2 >> 56;
        let s3 = a3 + b3 + c2;
        let c3 = s3 >> 56;
        let s4 = a4 + b4 + c3;

        self.0[0] = s0 & 0x00ffffffffffffff;
        self.0[1] = s1 & 0x00ffffffffffffff;
        self.0[2] = s2 & 0x00ffffffffffffff;
        self.0[3] = s3 & 0x00ffffffffffffff;
        self.0[4] = s4;
"

/-- `SubAssign<&Self>::sub_assign`, /repo/src/field/mod_e251_9.rs:334-363. -/
def subP : Prog := rust_prog% 9 4 27 "
        let a0 = self.0[0];
        let a1 = self.0[1];
        let a2 = self.0[2];
        let a3 = self.0[3];
        let a4 = self.0[4] & 0x0000000007ffffff;

        let b0 = rhs.0[0];
        let b1 = rhs.0[1];
        let b2 = rhs.0[2];
        let b3 = rhs.0[3];
        let b4 = rhs.0[4] & 0x0000000007ffffff;

        let cin = self.carry_out() + rhs.carry_out();
        let s0 = a0 - b0 + (cin * C_VAL);
        let c0 = s0 >> 56;
        let s1 = a1 - b1 + c0;
        let c1 = s1 >> 56;
        let s2 = a2 - b2 + c1;
        let c2 = s2 >> 56;
        let s3 = a3 - b3 + c2;
        let c3 = s3 >> 56;
        let s4 = a4 - b4 + c3;

        self.0[0] = s0 & 0x00ffffffffffffff;
        self.0[1] = s1 & 0x00ffffffffffffff;
        self.0[2] = s2 & 0x00ffffffffffffff;
        self.0[3] = s3 & 0x00ffffffffffffff;
        self.0[4] = s4;
"

/-- `MulAssign<&Self>::mul_assign`, /repo/src/field/mod_e251_9.rs:475-686. -/
def mulP : Prog := rust_prog% 9 4 27 "
        let a0 = self.0[0] & 0x0fffffff;
        let a1 = self.0[0] >> 28;
        let a2 = self.0[1] & 0x0fffffff;
        let a3 = self.0[1] >> 28;
        let a4 = self.0[2] & 0x0fffffff;
        let a5 = self.0[2] >> 28;
        let a6 = self.0[3] & 0x0fffffff;
        let a7 = self.0[3] >> 28;
        let a8 = self.0[4];

        let b0 = rhs.0[0] & 0x0fffffff;
        let b1 = rhs.0[0] >> 28;
        let b2 = rhs.0[1] & 0x0fffffff;
        let b3 = rhs.0[1] >> 28;
        let b4 = rhs.0[2] & 0x0fffffff;
        let b5 = rhs.0[2] >> 28;
        let b6 = rhs.0[3] & 0x0fffffff;
        let b7 = rhs.0[3] >> 28;
        let b8 = rhs.0[4];

        // Combined multiples
        let m_0_0 = a0 * b0;
        let m_0_1 = a0 * b1;
        let m_0_2 = a0 * b2;
        let m_0_3 = a0 * b3;
        let m_0_4 = a0 * b4;
        let m_0_5 = a0 * b5;
        let m_0_6 = a0 * b6;
        let m_0_7 = a0 * b7;
        let m_0_8 = a0 * b8;
        let m_1_0 = a1 * b0;
        let m_1_1 = a1 * b1;
        let m_1_2 = a1 * b2;
        let m_1_3 = a1 * b3;
        let m_1_4 = a1 * b4;
        let m_1_5 = a1 * b5;
        let m_1_6 = a1 * b6;
        let m_1_7 = a1 * b7;
        let m_1_8 = a1 * b8;
        let m_2_0 = a2 * b0;
        let m_2_1 = a2 * b1;
        let m_2_2 = a2 * b2;
        let m_2_3 = a2 * b3;
        let m_2_4 = a2 * b4;
        let m_2_5 = a2 * b5;
        let m_2_6 = a2 * b6;
        let m_2_7 = a2 * b7;
        let m_2_8 = a2 * b8;
        let m_3_0 = a3 * b0;
        let m_3_1 = a3 * b1;
        let m_3_2 = a3 * b2;
        let m_3_3 = a3 * b3;
        let m_3_4 = a3 * b4;
        let m_3_5 = a3 * b5;
        let m_3_6 = a3 * b6;
        let m_3_7 = a3 * b7;
        let m_3_8 = a3 * b8;
        let m_4_0 = a4 * b0;
        let m_4_1 = a4 * b1;
        let m_4_2 = a4 * b2;
        let m_4_3 = a4 * b3;
        let m_4_4 = a4 * b4;
        let m_4_5 = a4 * b5;
        let m_4_6 = a4 * b6;
        let m_4_7 = a4 * b7;
        let m_4_8 = a4 * b8;
        let m_5_0 = a5 * b0;
        let m_5_1 = a5 * b1;
        let m_5_2 = a5 * b2;
        let m_5_3 = a5 * b3;
        let m_5_4 = a5 * b4;
        let m_5_5 = a5 * b5;
        let m_5_6 = a5 * b6;
        let m_5_7 = a5 * b7;
        let m_5_8 = a5 * b8;
        let m_6_0 = a6 * b0;
        let m_6_1 = a6 * b1;
        let m_6_2 = a6 * b2;
        let m_6_3 = a6 * b3;
        let m_6_4 = a6 * b4;
        let m_6_5 = a6 * b5;
        let m_6_6 = a6 * b6;
        let m_6_7 = a6 * b7;
        let m_6_8 = a6 * b8;
        let m_7_0 = a7 * b0;
        let m_7_1 = a7 * b1;
        let m_7_2 = a7 * b2;
        let m_7_3 = a7 * b3;
        let m_7_4 = a7 * b4;
        let m_7_5 = a7 * b5;
        let m_7_6 = a7 * b6;
        let m_7_7 = a7 * b7;
        let m_7_8 = a7 * b8;
        let m_8_0 = a8 * b0;
        let m_8_1 = a8 * b1;
        let m_8_2 = a8 * b2;
        let m_8_3 = a8 * b3;
        let m_8_4 = a8 * b4;
        let m_8_5 = a8 * b5;
        let m_8_6 = a8 * b6;
        let m_8_7 = a8 * b7;
        let m_8_8 = a8 * b8;

        // Compute the 40-digit combined product using 64-bit operations.
        let d0 = m_0_0 + ((m_0_1 & 0x0fffffff) << 28) +
                 ((m_1_0 & 0x0fffffff) << 28);
        let c0 = d0 >> 56;
        let d1 = (m_0_1 >> 28) + m_0_2 + ((m_0_3 & 0x0fffffff) << 28) +
                 (m_1_0 >> 28) + m_1_1 + ((m_1_2 & 0x0fffffff) << 28) +
                 m_2_0 + ((m_2_1 & 0x0fffffff) << 28) +
                 ((m_3_0 & 0x0fffffff) << 28) + c0;
        let c1 = d1 >> 56;
        let d2 = (m_0_3 >> 28) + m_0_4 + ((m_0_5 & 0x0fffffff) << 28) +
                 (m_1_2 >> 28) + m_1_3 + ((m_1_4 & 0x0fffffff) << 28) +
                 (m_2_1 >> 28) + m_2_2 + ((m_2_3 & 0x0fffffff) << 28) +
                 (m_3_0 >> 28) + m_3_1 + ((m_3_2 & 0x0fffffff) << 28) +
                 m_4_0 + ((m_4_1 & 0x0fffffff) << 28) +
                 ((m_5_0 & 0x0fffffff) << 28) + c1;
        let c2 = d2 >> 56;
        let d3 = (m_0_5 >> 28) + m_0_6 + ((m_0_7 & 0x0fffffff) << 28) +
                 (m_1_4 >> 28) + m_1_5 + ((m_1_6 & 0x0fffffff) << 28) +
                 (m_2_3 >> 28) + m_2_4 + ((m_2_5 & 0x0fffffff) << 28) +
                 (m_3_2 >> 28) + m_3_3 + ((m_3_4 & 0x0fffffff) << 28) +
                 (m_4_1 >> 28) + m_4_2 + ((m_4_3 & 0x0fffffff) << 28) +
                 (m_5_0 >> 28) + m_5_1 + ((m_5_2 & 0x0fffffff) << 28) +
                 m_6_0 + ((m_6_1 & 0x0fffffff) << 28) +
                 ((m_7_0 & 0x0fffffff) << 28) + c2;
        let c3 = d3 >> 56;
        let d4 = (m_0_7 >> 28) + m_0_8 +
                 (m_1_6 >> 28) + m_1_7 + ((m_1_8 & 0x0fffffff) << 28) +
                 (m_2_5 >> 28) + m_2_6 + ((m_2_7 & 0x0fffffff) << 28) +
                 (m_3_4 >> 28) + m_3_5 + ((m_3_6 & 0x0fffffff) << 28) +
                 (m_4_3 >> 28) + m_4_4 + ((m_4_5 & 0x0fffffff) << 28) +
                 (m_5_2 >> 28) + m_5_3 + ((m_5_4 & 0x0fffffff) << 28) +
                 (m_6_1 >> 28) + m_6_2 + ((m_6_3 & 0x0fffffff) << 28) +
                 (m_7_0 >> 28) + m_7_1 + ((m_7_2 & 0x0fffffff) << 28) +
                 m_8_0 + ((m_8_1 & 0x0fffffff) << 28) +
                 c3;
        let c4 = d4 >> 56;
        let d5 = (m_1_8 >> 28) +
                 (m_2_7 >> 28) + m_2_8 +
                 (m_3_6 >> 28) + m_3_7 + ((m_3_8 & 0x0fffffff) << 28) +
                 (m_4_5 >> 28) + m_4_6 + ((m_4_7 & 0x0fffffff) << 28) +
                 (m_5_4 >> 28) + m_5_5 + ((m_5_6 & 0x0fffffff) << 28) +
                 (m_6_3 >> 28) + m_6_4 + ((m_6_5 & 0x0fffffff) << 28) +
                 (m_7_2 >> 28) + m_7_3 + ((m_7_4 & 0x0fffffff) << 28) +
                 (m_8_1 >> 28) + m_8_2 + ((m_8_3 & 0x0fffffff) << 28) +
                 c4;
        let c5 = d5 >> 56;
        let d6 = (m_3_8 >> 28) +
                 (m_4_7 >> 28) + m_4_8 +
                 (m_5_6 >> 28) + m_5_7 + ((m_5_8 & 0x0fffffff) << 28) +
                 (m_6_5 >> 28) + m_6_6 + ((m_6_7 & 0x0fffffff) << 28) +
                 (m_7_4 >> 28) + m_7_5 + ((m_7_6 & 0x0fffffff) << 28) +
                 (m_8_3 >> 28) + m_8_4 + ((m_8_5 & 0x0fffffff) << 28) +
                 c5;
        let c6 = d6 >> 56;
        let d7 = (m_5_8 >> 28) +
                 (m_6_7 >> 28) + m_6_8 +
                 (m_7_6 >> 28) + m_7_7 + ((m_7_8 & 0x0fffffff) << 28) +
                 (m_8_5 >> 28) + m_8_6 + ((m_8_7 & 0x0fffffff) << 28) +
                 c6;
        let c7 = d7 >> 56;
        let d8 = (m_7_8 >> 28) +
                 (m_8_7 >> 28) + m_8_8 + c7;

        // Modular reduction by a pseudo-mersenne prime of the form 2^n - c.

        // These are the n low-order
        let l0_0 = d0 & 0x00ffffffffffffff;
        let l1_0 = d1 & 0x00ffffffffffffff;
        let l2_0 = d2 & 0x00ffffffffffffff;
        let l3_0 = d3 & 0x00ffffffffffffff;
        let l4_0 = d4 & 0x0000000007ffffff;

        // Shift the high bits down into another n-bit number.
        let h0_0 = ((d4 & 0x00ffffffffffffff) >> 27) |
                   ((d5 & 0x0000000007ffffff) << 29);
        let h1_0 = ((d5 & 0x00ffffffffffffff) >> 27) |
                   ((d6 & 0x0000000007ffffff) << 29);
        let h2_0 = ((d6 & 0x00ffffffffffffff) >> 27) |
                   ((d7 & 0x0000000007ffffff) << 29);
        let h3_0 = ((d7 & 0x00ffffffffffffff) >> 27) |
                   ((d8 & 0x0000000007ffffff) << 29);
        let h4_0 = (d8 & 0x00ffffffffffffff) >> 27;

        // Multiply by C
        let hc0_0 = h0_0 * C_VAL;
        let hc1_0 = h1_0 * C_VAL;
        let hc2_0 = h2_0 * C_VAL;
        let hc3_0 = h3_0 * C_VAL;
        let hc4_0 = h4_0 * C_VAL;

        // Add h and l.
        let kin_0 = hc4_0 >> 27;
        let s0_0 = l0_0 + hc0_0 + (kin_0 * C_VAL);
        let k0_0 = s0_0 >> 56;
        let s1_0 = l1_0 + hc1_0 + k0_0;
        let k1_0 = s1_0 >> 56;
        let s2_0 = l2_0 + hc2_0 + k1_0;
        let k2_0 = s2_0 >> 56;
        let s3_0 = l3_0 + hc3_0 + k2_0;
        let k3_0 = s3_0 >> 56;
        let s4_0 = l4_0 + (hc4_0 & 0x0000000007ffffff) + k3_0;

        self.0[0] = s0_0 & 0x00ffffffffffffff;
        self.0[1] = s1_0 & 0x00ffffffffffffff;
        self.0[2] = s2_0 & 0x00ffffffffffffff;
        self.0[3] = s3_0 & 0x00ffffffffffffff;
        self.0[4] = s4_0;
"

/-- `PrimeField::square`, /repo/src/field/mod_e251_9.rs:1042-1243. -/
def squareP : Prog := rust_prog% 9 4 27 "
        let a0 = self.0[0] & 0x0fffffff;
        let a1 = self.0[0] >> 28;
        let a2 = self.0[1] & 0x0fffffff;
        let a3 = self.0[1] >> 28;
        let a4 = self.0[2] & 0x0fffffff;
        let a5 = self.0[2] >> 28;
        let a6 = self.0[3] & 0x0fffffff;
        let a7 = self.0[3] >> 28;
        let a8 = self.0[4];

        // Combined multiples
        let m_0_0 = a0 * a0;
        let m_0_1 = a0 * a1;
        let m_0_2 = a0 * a2;
        let m_0_3 = a0 * a3;
        let m_0_4 = a0 * a4;
        let m_0_5 = a0 * a5;
        let m_0_6 = a0 * a6;
        let m_0_7 = a0 * a7;
        let m_0_8 = a0 * a8;
        let m_1_0 = m_0_1;
        let m_1_1 = a1 * a1;
        let m_1_2 = a1 * a2;
        let m_1_3 = a1 * a3;
        let m_1_4 = a1 * a4;
        let m_1_5 = a1 * a5;
        let m_1_6 = a1 * a6;
        let m_1_7 = a1 * a7;
        let m_1_8 = a1 * a8;
        let m_2_0 = m_0_2;
        let m_2_1 = m_1_2;
        let m_2_2 = a2 * a2;
        let m_2_3 = a2 * a3;
        let m_2_4 = a2 * a4;
        let m_2_5 = a2 * a5;
        let m_2_6 = a2 * a6;
        let m_2_7 = a2 * a7;
        let m_2_8 = a2 * a8;
        let m_3_0 = m_0_3;
        let m_3_1 = m_1_3;
        let m_3_2 = m_2_3;
        let m_3_3 = a3 * a3;
        let m_3_4 = a3 * a4;
        let m_3_5 = a3 * a5;
        let m_3_6 = a3 * a6;
        let m_3_7 = a3 * a7;
        let m_3_8 = a3 * a8;
        let m_4_0 = m_0_4;
        let m_4_1 = m_1_4;
        let m_4_2 = m_2_4;
        let m_4_3 = m_3_4;
        let m_4_4 = a4 * a4;
        let m_4_5 = a4 * a5;
        let m_4_6 = a4 * a6;
        let m_4_7 = a4 * a7;
        let m_4_8 = a4 * a8;
        let m_5_0 = m_0_5;
        let m_5_1 = m_1_5;
        let m_5_2 = m_2_5;
        let m_5_3 = m_3_5;
        let m_5_4 = m_4_5;
        let m_5_5 = a5 * a5;
        let m_5_6 = a5 * a6;
        let m_5_7 = a5 * a7;
        let m_5_8 = a5 * a8;
        let m_6_0 = m_0_6;
        let m_6_1 = m_1_6;
        let m_6_2 = m_2_6;
        let m_6_3 = m_3_6;
        let m_6_4 = m_4_6;
        let m_6_5 = m_5_6;
        let m_6_6 = a6 * a6;
        let m_6_7 = a6 * a7;
        let m_6_8 = a6 * a8;
        let m_7_0 = m_0_7;
        let m_7_1 = m_1_7;
        let m_7_2 = m_2_7;
        let m_7_3 = m_3_7;
        let m_7_4 = m_4_7;
        let m_7_5 = m_5_7;
        let m_7_6 = m_6_7;
        let m_7_7 = a7 * a7;
        let m_7_8 = a7 * a8;
        let m_8_0 = m_0_8;
        let m_8_1 = m_1_8;
        let m_8_2 = m_2_8;
        let m_8_3 = m_3_8;
        let m_8_4 = m_4_8;
        let m_8_5 = m_5_8;
        let m_8_6 = m_6_8;
        let m_8_7 = m_7_8;
        let m_8_8 = a8 * a8;

        // Compute the 40-digit combined product using 64-bit operations.
        let d0 = m_0_0 + ((m_0_1 & 0x0fffffff) << 28) +
                 ((m_1_0 & 0x0fffffff) << 28);
        let c0 = d0 >> 56;
        let d1 = (m_0_1 >> 28) + m_0_2 + ((m_0_3 & 0x0fffffff) << 28) +
                 (m_1_0 >> 28) + m_1_1 + ((m_1_2 & 0x0fffffff) << 28) +
                 m_2_0 + ((m_2_1 & 0x0fffffff) << 28) +
                 ((m_3_0 & 0x0fffffff) << 28) + c0;
        let c1 = d1 >> 56;
        let d2 = (m_0_3 >> 28) + m_0_4 + ((m_0_5 & 0x0fffffff) << 28) +
                 (m_1_2 >> 28) + m_1_3 + ((m_1_4 & 0x0fffffff) << 28) +
                 (m_2_1 >> 28) + m_2_2 + ((m_2_3 & 0x0fffffff) << 28) +
                 (m_3_0 >> 28) + m_3_1 + ((m_3_2 & 0x0fffffff) << 28) +
                 m_4_0 + ((m_4_1 & 0x0fffffff) << 28) +
                 ((m_5_0 & 0x0fffffff) << 28) + c1;
        let c2 = d2 >> 56;
        let d3 = (m_0_5 >> 28) + m_0_6 + ((m_0_7 & 0x0fffffff) << 28) +
                 (m_1_4 >> 28) + m_1_5 + ((m_1_6 & 0x0fffffff) << 28) +
                 (m_2_3 >> 28) + m_2_4 + ((m_2_5 & 0x0fffffff) << 28) +
                 (m_3_2 >> 28) + m_3_3 + ((m_3_4 & 0x0fffffff) << 28) +
                 (m_4_1 >> 28) + m_4_2 + ((m_4_3 & 0x0fffffff) << 28) +
                 (m_5_0 >> 28) + m_5_1 + ((m_5_2 & 0x0fffffff) << 28) +
                 m_6_0 + ((m_6_1 & 0x0fffffff) << 28) +
                 ((m_7_0 & 0x0fffffff) << 28) + c2;
        let c3 = d3 >> 56;
        let d4 = (m_0_7 >> 28) + m_0_8 +
                 (m_1_6 >> 28) + m_1_7 + ((m_1_8 & 0x0fffffff) << 28) +
                 (m_2_5 >> 28) + m_2_6 + ((m_2_7 & 0x0fffffff) << 28) +
                 (m_3_4 >> 28) + m_3_5 + ((m_3_6 & 0x0fffffff) << 28) +
                 (m_4_3 >> 28) + m_4_4 + ((m_4_5 & 0x0fffffff) << 28) +
                 (m_5_2 >> 28) + m_5_3 + ((m_5_4 & 0x0fffffff) << 28) +
                 (m_6_1 >> 28) + m_6_2 + ((m_6_3 & 0x0fffffff) << 28) +
                 (m_7_0 >> 28) + m_7_1 + ((m_7_2 & 0x0fffffff) << 28) +
                 m_8_0 + ((m_8_1 & 0x0fffffff) << 28) +
                 c3;
        let c4 = d4 >> 56;
        let d5 = (m_1_8 >> 28) +
                 (m_2_7 >> 28) + m_2_8 +
                 (m_3_6 >> 28) + m_3_7 + ((m_3_8 & 0x0fffffff) << 28) +
                 (m_4_5 >> 28) + m_4_6 + ((m_4_7 & 0x0fffffff) << 28) +
                 (m_5_4 >> 28) + m_5_5 + ((m_5_6 & 0x0fffffff) << 28) +
                 (m_6_3 >> 28) + m_6_4 + ((m_6_5 & 0x0fffffff) << 28) +
                 (m_7_2 >> 28) + m_7_3 + ((m_7_4 & 0x0fffffff) << 28) +
                 (m_8_1 >> 28) + m_8_2 + ((m_8_3 & 0x0fffffff) << 28) +
                 c4;
        let c5 = d5 >> 56;
        let d6 = (m_3_8 >> 28) +
                 (m_4_7 >> 28) + m_4_8 +
                 (m_5_6 >> 28) + m_5_7 + ((m_5_8 & 0x0fffffff) << 28) +
                 (m_6_5 >> 28) + m_6_6 + ((m_6_7 & 0x0fffffff) << 28) +
                 (m_7_4 >> 28) + m_7_5 + ((m_7_6 & 0x0fffffff) << 28) +
                 (m_8_3 >> 28) + m_8_4 + ((m_8_5 & 0x0fffffff) << 28) +
                 c5;
        let c6 = d6 >> 56;
        let d7 = (m_5_8 >> 28) +
                 (m_6_7 >> 28) + m_6_8 +
                 (m_7_6 >> 28) + m_7_7 + ((m_7_8 & 0x0fffffff) << 28) +
                 (m_8_5 >> 28) + m_8_6 + ((m_8_7 & 0x0fffffff) << 28) +
                 c6;
        let c7 = d7 >> 56;
        let d8 = (m_7_8 >> 28) +
                 (m_8_7 >> 28) + m_8_8 + c7;

        // Modular reduction by a pseudo-mersenne prime of the form 2^n - c.

        // These are the n low-order
        let l0_0 = d0 & 0x00ffffffffffffff;
        let l1_0 = d1 & 0x00ffffffffffffff;
        let l2_0 = d2 & 0x00ffffffffffffff;
        let l3_0 = d3 & 0x00ffffffffffffff;
        let l4_0 = d4 & 0x0000000007ffffff;

        // Shift the high bits down into another n-bit number.
        let h0_0 = ((d4 & 0x00ffffffffffffff) >> 27) |
                   ((d5 & 0x0000000007ffffff) << 29);
        let h1_0 = ((d5 & 0x00ffffffffffffff) >> 27) |
                   ((d6 & 0x0000000007ffffff) << 29);
        let h2_0 = ((d6 & 0x00ffffffffffffff) >> 27) |
                   ((d7 & 0x0000000007ffffff) << 29);
        let h3_0 = ((d7 & 0x00ffffffffffffff) >> 27) |
                   ((d8 & 0x0000000007ffffff) << 29);
        let h4_0 = d8 >> 27;

        // Multiply by C
        let hc0_0 = h0_0 * C_VAL;
        let hc1_0 = h1_0 * C_VAL;
        let hc2_0 = h2_0 * C_VAL;
        let hc3_0 = h3_0 * C_VAL;
        let hc4_0 = h4_0 * C_VAL;

        // Add h and l.
        let kin_0 = hc4_0 >> 27;
        let s0_0 = l0_0 + hc0_0 + (kin_0 * C_VAL);
        let k0_0 = s0_0 >> 56;
        let s1_0 = l1_0 + hc1_0 + k0_0;
        let k1_0 = s1_0 >> 56;
        let s2_0 = l2_0 + hc2_0 + k1_0;
        let k2_0 = s2_0 >> 56;
        let s3_0 = l3_0 + hc3_0 + k2_0;
        let k3_0 = s3_0 >> 56;
        let s4_0 = l4_0 + (hc4_0 & 0x0000000007ffffff) + k3_0;

        self.0[0] = s0_0 & 0x00ffffffffffffff;
        self.0[1] = s1_0 & 0x00ffffffffffffff;
        self.0[2] = s2_0 & 0x00ffffffffffffff;
        self.0[3] = s3_0 & 0x00ffffffffffffff;
        self.0[4] = s4_0;
"

/-- `PrimeField::small_add_assign`, /repo/src/field/mod_e251_9.rs:1319-1344. -/
def smallAddP : Prog := rust_prog% 9 4 27 "
        let a0 = self.0[0];
        let a1 = self.0[1];
        let a2 = self.0[2];
        let a3 = self.0[3];
        let a4 = self.0[4] & 0x0000000007ffffff;

        let b = i64::from(rhs);

        let cin = self.carry_out();
        let s0 = a0 + b + (cin * C_VAL);
        let c0 = s0 >> 56;
        let s1 = a1 + c0;
        let c1 = s1 >> 56;
        let s2 = a2 + c1;
        let c2 = s2 >> 56;
        let s3 = a3 + c2;
        let c3 = s3 >> 56;
        let s4 = a4 + c3;

        self.0[0] = s0 & 0x00ffffffffffffff;
        self.0[1] = s1 & 0x00ffffffffffffff;
        self.0[2] = s2 & 0x00ffffffffffffff;
        self.0[3] = s3 & 0x00ffffffffffffff;
        self.0[4] = s4;
"

/-- `PrimeField::small_sub_assign`, /repo/src/field/mod_e251_9.rs:1354-1379. -/
def smallSubP : Prog := rust_prog% 9 4 27 "
        let a0 = self.0[0];
        let a1 = self.0[1];
        let a2 = self.0[2];
        let a3 = self.0[3];
        let a4 = self.0[4] & 0x0000000007ffffff;

        let b = i64::from(rhs);

        let cin = self.carry_out();
        let s0 = a0 - b + (cin * C_VAL);
        let c0 = s0 >> 56;
        let s1 = a1 + c0;
        let c1 = s1 >> 56;
        let s2 = a2 + c1;
        let c2 = s2 >> 56;
        let s3 = a3 + c2;
        let c3 = s3 >> 56;
        let s4 = a4 + c3;

        self.0[0] = s0 & 0x00ffffffffffffff;
        self.0[1] = s1 & 0x00ffffffffffffff;
        self.0[2] = s2 & 0x00ffffffffffffff;
        self.0[3] = s3 & 0x00ffffffffffffff;
        self.0[4] = s4;
"

/-- `PrimeField::small_mul_assign`, /repo/src/field/mod_e251_9.rs:1389-1428. -/
def smallMulP : Prog := rust_prog% 9 4 27 "
        let a0 = self.0[0] & 0x0fffffff;
        let a1 = self.0[0] >> 28;
        let a2 = self.0[1] & 0x0fffffff;
        let a3 = self.0[1] >> 28;
        let a4 = self.0[2] & 0x0fffffff;
        let a5 = self.0[2] >> 28;
        let a6 = self.0[3] & 0x0fffffff;
        let a7 = self.0[3] >> 28;
        let a8 = self.0[4];

        let b = i64::from(rhs);

        let m0 = a0 * b;
        let m1 = a1 * b;
        let m2 = a2 * b;
        let m3 = a3 * b;
        let m4 = a4 * b;
        let m5 = a5 * b;
        let m6 = a6 * b;
        let m7 = a7 * b;
        let m8 = a8 * b;

        let cin = self.carry_out();
        let d0 = m0 + ((m1 & 0x0fffffff) << 28) + (cin * C_VAL);
        let c0 = d0 >> 56;
        let d1 = (m1 >> 28) + m2 + ((m3 & 0x0fffffff) << 28) + c0;
        let c1 = d1 >> 56;
        let d2 = (m3 >> 28) + m4 + ((m5 & 0x0fffffff) << 28) + c1;
        let c2 = d2 >> 56;
        let d3 = (m5 >> 28) + m6 + ((m7 & 0x0fffffff) << 28) + c2;
        let c3 = d3 >> 56;
        let d4 = (m7 >> 28) + m8 + c3;

        self.0[0] = d0 & 0x00ffffffffffffff;
        self.0[1] = d1 & 0x00ffffffffffffff;
        self.0[2] = d2 & 0x00ffffffffffffff;
        self.0[3] = d3 & 0x00ffffffffffffff;
        self.0[4] = d4;
"

/-- `Pack::unpack`, /repo/src/field/mod_e251_9.rs:798-831. -/
def unpackP : Prog := rust_prog% 9 4 27 "
        self.0[0] = ((bytes[0] as i64) & 0x00000000000000ff) |
                  (((bytes[1] as i64) << 8) & 0x000000000000ff00) |
                  (((bytes[2] as i64) << 16) & 0x0000000000ff0000) |
                  (((bytes[3] as i64) << 24) & 0x00000000ff000000) |
                  (((bytes[4] as i64) << 32) & 0x000000ff00000000) |
                  (((bytes[5] as i64) << 40) & 0x0000ff0000000000) |
                  (((bytes[6] as i64) << 48) & 0x00ff000000000000);
        self.0[1] = ((bytes[7] as i64) & 0x00000000000000ff) |
                  (((bytes[8] as i64) << 8) & 0x000000000000ff00) |
                  (((bytes[9] as i64) << 16) & 0x0000000000ff0000) |
                  (((bytes[10] as i64) << 24) & 0x00000000ff000000) |
                  (((bytes[11] as i64) << 32) & 0x000000ff00000000) |
                  (((bytes[12] as i64) << 40) & 0x0000ff0000000000) |
                  (((bytes[13] as i64) << 48) & 0x00ff000000000000);
        self.0[2] = ((bytes[14] as i64) & 0x00000000000000ff) |
                  (((bytes[15] as i64) << 8) & 0x000000000000ff00) |
                  (((bytes[16] as i64) << 16) & 0x0000000000ff0000) |
                  (((bytes[17] as i64) << 24) & 0x00000000ff000000) |
                  (((bytes[18] as i64) << 32) & 0x000000ff00000000) |
                  (((bytes[19] as i64) << 40) & 0x0000ff0000000000) |
                  (((bytes[20] as i64) << 48) & 0x00ff000000000000);
        self.0[3] = ((bytes[21] as i64) & 0x00000000000000ff) |
                  (((bytes[22] as i64) << 8) & 0x000000000000ff00) |
                  (((bytes[23] as i64) << 16) & 0x0000000000ff0000) |
                  (((bytes[24] as i64) << 24) & 0x00000000ff000000) |
                  (((bytes[25] as i64) << 32) & 0x000000ff00000000) |
                  (((bytes[26] as i64) << 40) & 0x0000ff0000000000) |
                  (((bytes[27] as i64) << 48) & 0x00ff000000000000);
        self.0[4]  = ((bytes[28] as i64) & 0x00000000000000ff) |
                  (((bytes[29] as i64) << 8) & 0x000000000000ff00) |
                  (((bytes[30] as i64) << 16) & 0x0000000000ff0000) |
                  (((bytes[31] as i64) << 24) & 0x0000000007000000);
"

/-- `Pack::pack_normalized`, /repo/src/field/mod_e251_9.rs:844-877. -/
def packP : Prog := rust_prog% 9 4 27 "
        bytes[0] = (self.0[0] & 0b11111111) as u8;
        bytes[1] = ((self.0[0] >> 8) & 0b11111111) as u8;
        bytes[2] = ((self.0[0] >> 16) & 0b11111111) as u8;
        bytes[3] = ((self.0[0] >> 24) & 0b11111111) as u8;
        bytes[4] = ((self.0[0] >> 32) & 0b11111111) as u8;
        bytes[5] = ((self.0[0] >> 40) & 0b11111111) as u8;
        bytes[6] = ((self.0[0] >> 48) & 0b11111111) as u8;
        bytes[7] = (self.0[1] & 0b11111111) as u8;
        bytes[8] = ((self.0[1] >> 8) & 0b11111111) as u8;
        bytes[9] = ((self.0[1] >> 16) & 0b11111111) as u8;
        bytes[10] = ((self.0[1] >> 24) & 0b11111111) as u8;
        bytes[11] = ((self.0[1] >> 32) & 0b11111111) as u8;
        bytes[12] = ((self.0[1] >> 40) & 0b11111111) as u8;
        bytes[13] = ((self.0[1] >> 48) & 0b11111111) as u8;
        bytes[14] = (self.0[2] & 0b11111111) as u8;
        bytes[15] = ((self.0[2] >> 8) & 0b11111111) as u8;
        bytes[16] = ((self.0[2] >> 16) & 0b11111111) as u8;
        bytes[17] = ((self.0[2] >> 24) & 0b11111111) as u8;
        bytes[18] = ((self.0[2] >> 32) & 0b11111111) as u8;
        bytes[19] = ((self.0[2] >> 40) & 0b11111111) as u8;
        bytes[20] = ((self.0[2] >> 48) & 0b11111111) as u8;
        bytes[21] = (self.0[3] & 0b11111111) as u8;
        bytes[22] = ((self.0[3] >> 8) & 0b11111111) as u8;
        bytes[23] = ((self.0[3] >> 16) & 0b11111111) as u8;
        bytes[24] = ((self.0[3] >> 24) & 0b11111111) as u8;
        bytes[25] = ((self.0[3] >> 32) & 0b11111111) as u8;
        bytes[26] = ((self.0[3] >> 40) & 0b11111111) as u8;
        bytes[27] = ((self.0[3] >> 48) & 0b11111111) as u8;
        bytes[28] = (self.0[4] & 0b11111111) as u8;
        bytes[29] = ((self.0[4] >> 8) & 0b11111111) as u8;
        bytes[30] = ((self.0[4] >> 16) & 0b11111111) as u8;
        bytes[31] = ((self.0[4] >> 24) & 0b00000111) as u8;
"

/-- `PrimeField::invert`, /repo/src/field/mod_e251_9.rs:1253-1272. -/
def invertC : Chain := rust_chain% "
        // First digit is 1.
        let mut sqval = self.clone();

        // Second digit is 0.
        sqval.square();

        // Third digit is 1.
        sqval.square();
        *self *= &sqval;

        // Fourth digits is 0.
        sqval.square();

        // All the remaining digits are 1.
        for _ in 4..251 {
            sqval.square();
            *self *= &sqval;
        }
"

/-- `PrimeField::legendre`, /repo/src/field/mod_e251_9.rs:1282-1301. -/
def legendreC : Chain := rust_chain% "
        // First digit is 1.
        let mut out = self.clone();
        let mut sqval = out.clone();

        // Second digit is 1.
        sqval.square();
        out *= &sqval;

        // Third digit is 0.
        sqval.square();

        // All the remaining digits are 1.
        for _ in 3..250 {
            sqval.square();
            out *= &sqval;
        }

        out
"

/-- `PrimeField::sqrt`, /repo/src/field/mod_e251_9.rs:1303-1317. -/
def sqrtC : Chain := rust_chain% "
        // First digit is 0.

        // Second digit is 1.
        let mut out = self.squared();
        let mut sqval = out.clone();

        // All the remaining digits are 1.
        for _ in 2..249 {
            sqval.square();
            out *= &sqval;
        }

        out
"

/-- The module as a whole: `nbits` line 976, `nbytes` line 879, `bit_normalized`
line 979. -/
def code : FieldCode where
  typeName := "Mod_e251_9"
  limbs := 5
  cval := 9
  carryLimb := 4
  carryShift := 27
  nbits := 251
  nbytes := 32
  limbBits := 56
  ZERO := ZERO
  ONE := ONE
  M_ONE := M_ONE
  MODULUS := MODULUS
  M_HALF := none
  COEFF := none
  addP := addP
  subP := subP
  mulP := mulP
  squareP := squareP
  smallAddP := smallAddP
  smallSubP := smallSubP
  smallMulP := smallMulP
  unpackP := unpackP
  packP := packP
  invertC := invertC
  legendreC := legendreC
  sqrtC := sqrtC
  quarticC := none

end Verif.Fields.E251_9
