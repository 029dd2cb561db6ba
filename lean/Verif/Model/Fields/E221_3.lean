import Verif.Model.Field

/-!
# Mod_e221_3

Verbatim function bodies and constants of `/repo/src/field/mod_e221_3.rs`
(struct with 4 words; `C_VAL = 3` at line 41; `carry_out` at line 125:
`self.0[3] >> 47`).
-/

namespace Verif.Fields.E221_3

/-- `ZERO`, /repo/src/field/mod_e221_3.rs:44-44. -/
def ZERO : Elem :=
  [0, 0, 0, 0]

/-- `ONE`, /repo/src/field/mod_e221_3.rs:47-47. -/
def ONE : Elem :=
  [1, 0, 0, 0]

/-- `M_ONE`, /repo/src/field/mod_e221_3.rs:50-52. -/
def M_ONE : Elem :=
  [0x03fffffffffffffc, 0x03ffffffffffffff, 0x03ffffffffffffff, 0x00007fffffffffff]

/-- `MODULUS`, /repo/src/field/mod_e221_3.rs:55-57. -/
def MODULUS : Elem :=
  [0x03fffffffffffffd, 0x03ffffffffffffff, 0x03ffffffffffffff, 0x00007fffffffffff]

/-- `M_HALF`, /repo/src/field/mod_e221_3.rs:60-62. -/
def M_HALF : Elem :=
  [0x03fffffffffffffe, 0x03ffffffffffffff, 0x03ffffffffffffff, 0x00003fffffffffff]

/-- `COEFF`, /repo/src/field/mod_e221_3.rs:64-66. -/
def COEFF : Elem :=
  [0x02b158a371015617, 0x0393918499ec8f01, 0x00dd6e73800ee6c4, 0x00002301b5e2218f]

/-- `M221_BASE_X`, /repo/src/field/mod_e221_3.rs:69-69. -/
def M221_BASE_X : Elem :=
  [0x4, 0, 0, 0]

/-- `M221_BASE_Y`, /repo/src/field/mod_e221_3.rs:73-75. -/
def M221_BASE_Y : Elem :=
  [0x0307dc6c08c5056d, 0x01f08a39876ffc41, 0x01571d1cef14eca3, 0x00003deb374a924e]

/-- `M221_ORDER`, /repo/src/field/mod_e221_3.rs:79-81. -/
def M221_ORDER : Elem :=
  [0x02f77f005042605b, 0x00056823b5cc3a28, 0, 0x0000100000000000]

/-- `AddAssign<&Self>::add_assign`, /repo/src/field/mod_e221_3.rs:166-190. -/
def addP : Prog := rust_prog% 3 3 47 "
        let a0 = self.0[0];
        let a1 = self.0[1];
        let a2 = self.0[2];
        let a3 = self.0[3] & 0x00007fffffffffff;

        let b0 = rhs.0[0];
        let b1 = rhs.0[1];
        let b2 = rhs.0[2];
        let b3 = rhs.0[3] & 0x00007fffffffffff;

        let cin = self.carry_out() + rhs.carry_out();
        let s0 = a0 + b0 + (cin * C_VAL);
        let c0 = s0 >> 58;
        let s1 = a1 + b1 + c0;
        let c1 = s1 >> 58;
        let s2 = a2 + b2 + c1;
        let c2 = s2 >> 58;
        let s3 = a3 + b3 + c2;

        self.0[0] = s0 & 0x03ffffffffffffff;
        self.0[1] = s1 & 0x03ffffffffffffff;
        self.0[2] = s2 & 0x03ffffffffffffff;
        self.0[3] = s3;
"

/-- `SubAssign<&Self>::sub_assign`, /repo/src/field/mod_e221_3.rs:356-380. -/
def subP : Prog := rust_prog% 3 3 47 "
        let a0 = self.0[0];
        let a1 = self.0[1];
        let a2 = self.0[2];
        let a3 = self.0[3] & 0x00007fffffffffff;

        let b0 = rhs.0[0];
        let b1 = rhs.0[1];
        let b2 = rhs.0[2];
        let b3 = rhs.0[3] & 0x00007fffffffffff;

        let cin = self.carry_out() + rhs.carry_out();
        let s0 = a0 - b0 + (cin * C_VAL);
        let c0 = s0 >> 58;
        let s1 = a1 - b1 + c0;
        let c1 = s1 >> 58;
        let s2 = a2 - b2 + c1;
        let c2 = s2 >> 58;
        let s3 = a3 - b3 + c2;

        self.0[0] = s0 & 0x03ffffffffffffff;
        self.0[1] = s1 & 0x03ffffffffffffff;
        self.0[2] = s2 & 0x03ffffffffffffff;
        self.0[3] = s3;
"

/-- `MulAssign<&Self>::mul_assign`, /repo/src/field/mod_e221_3.rs:474-651. -/
def mulP : Prog := rust_prog% 3 3 47 "
        // Expand out to single digits
        let a0 = self.0[0] & 0x1fffffff;
        let a1 = self.0[0] >> 29;
        let a2 = self.0[1] & 0x1fffffff;
        let a3 = self.0[1] >> 29;
        let a4 = self.0[2] & 0x1fffffff;
        let a5 = self.0[2] >> 29;
        let a6 = self.0[3] & 0x1fffffff;
        let a7 = self.0[3] >> 29;

        let b0 = rhs.0[0] & 0x1fffffff;
        let b1 = rhs.0[0] >> 29;
        let b2 = rhs.0[1] & 0x1fffffff;
        let b3 = rhs.0[1] >> 29;
        let b4 = rhs.0[2] & 0x1fffffff;
        let b5 = rhs.0[2] >> 29;
        let b6 = rhs.0[3] & 0x1fffffff;
        let b7 = rhs.0[3] >> 29;

        // Combined multiples
        let m_0_0 = a0 * b0;
        let m_0_1 = a0 * b1;
        let m_0_2 = a0 * b2;
        let m_0_3 = a0 * b3;
        let m_0_4 = a0 * b4;
        let m_0_5 = a0 * b5;
        let m_0_6 = a0 * b6;
        let m_0_7 = a0 * b7;
        let m_1_0 = a1 * b0;
        let m_1_1 = a1 * b1;
        let m_1_2 = a1 * b2;
        let m_1_3 = a1 * b3;
        let m_1_4 = a1 * b4;
        let m_1_5 = a1 * b5;
        let m_1_6 = a1 * b6;
        let m_1_7 = a1 * b7;
        let m_2_0 = a2 * b0;
        let m_2_1 = a2 * b1;
        let m_2_2 = a2 * b2;
        let m_2_3 = a2 * b3;
        let m_2_4 = a2 * b4;
        let m_2_5 = a2 * b5;
        let m_2_6 = a2 * b6;
        let m_2_7 = a2 * b7;
        let m_3_0 = a3 * b0;
        let m_3_1 = a3 * b1;
        let m_3_2 = a3 * b2;
        let m_3_3 = a3 * b3;
        let m_3_4 = a3 * b4;
        let m_3_5 = a3 * b5;
        let m_3_6 = a3 * b6;
        let m_3_7 = a3 * b7;
        let m_4_0 = a4 * b0;
        let m_4_1 = a4 * b1;
        let m_4_2 = a4 * b2;
        let m_4_3 = a4 * b3;
        let m_4_4 = a4 * b4;
        let m_4_5 = a4 * b5;
        let m_4_6 = a4 * b6;
        let m_4_7 = a4 * b7;
        let m_5_0 = a5 * b0;
        let m_5_1 = a5 * b1;
        let m_5_2 = a5 * b2;
        let m_5_3 = a5 * b3;
        let m_5_4 = a5 * b4;
        let m_5_5 = a5 * b5;
        let m_5_6 = a5 * b6;
        let m_5_7 = a5 * b7;
        let m_6_0 = a6 * b0;
        let m_6_1 = a6 * b1;
        let m_6_2 = a6 * b2;
        let m_6_3 = a6 * b3;
        let m_6_4 = a6 * b4;
        let m_6_5 = a6 * b5;
        let m_6_6 = a6 * b6;
        let m_6_7 = a6 * b7;
        let m_7_0 = a7 * b0;
        let m_7_1 = a7 * b1;
        let m_7_2 = a7 * b2;
        let m_7_3 = a7 * b3;
        let m_7_4 = a7 * b4;
        let m_7_5 = a7 * b5;
        let m_7_6 = a7 * b6;
        let m_7_7 = a7 * b7;

        // Compute the 16-digit combined product using 64-bit operations.
        let d0 = m_0_0 + ((m_0_1 & 0x1fffffff) << 29) +
                 ((m_1_0 & 0x1fffffff) << 29);
        let c0 = d0 >> 58;
        let d1 = (m_0_1 >> 29) + m_0_2 + ((m_0_3 & 0x1fffffff) << 29) +
                 (m_1_0 >> 29) + m_1_1 + ((m_1_2 & 0x1fffffff) << 29) +
                 m_2_0 + ((m_2_1 & 0x1fffffff) << 29) +
                 ((m_3_0 & 0x1fffffff) << 29) + c0;
        let c1 = d1 >> 58;
        let d2 = (m_0_3 >> 29) + m_0_4 + ((m_0_5 & 0x1fffffff) << 29) +
                 (m_1_2 >> 29) + m_1_3 + ((m_1_4 & 0x1fffffff) << 29) +
                 (m_2_1 >> 29) + m_2_2 + ((m_2_3 & 0x1fffffff) << 29) +
                 (m_3_0 >> 29) + m_3_1 + ((m_3_2 & 0x1fffffff) << 29) +
                 m_4_0 + ((m_4_1 & 0x1fffffff) << 29) +
                 ((m_5_0 & 0x1fffffff) << 29) + c1;
        let c2 = d2 >> 58;
        let d3 = (m_0_5 >> 29) + m_0_6 + ((m_0_7 & 0x1fffffff) << 29) +
                 (m_1_4 >> 29) + m_1_5 + ((m_1_6 & 0x1fffffff) << 29) +
                 (m_2_3 >> 29) + m_2_4 + ((m_2_5 & 0x1fffffff) << 29) +
                 (m_3_2 >> 29) + m_3_3 + ((m_3_4 & 0x1fffffff) << 29) +
                 (m_4_1 >> 29) + m_4_2 + ((m_4_3 & 0x1fffffff) << 29) +
                 (m_5_0 >> 29) + m_5_1 + ((m_5_2 & 0x1fffffff) << 29) +
                 m_6_0 + ((m_6_1 & 0x1fffffff) << 29) +
                 ((m_7_0 & 0x1fffffff) << 29) + c2;
        let c3 = d3 >> 58;
        let d4 = (m_0_7 >> 29) +
                 (m_1_6 >> 29) + m_1_7 +
                 (m_2_5 >> 29) + m_2_6 + ((m_2_7 & 0x1fffffff) << 29) +
                 (m_3_4 >> 29) + m_3_5 + ((m_3_6 & 0x1fffffff) << 29) +
                 (m_4_3 >> 29) + m_4_4 + ((m_4_5 & 0x1fffffff) << 29) +
                 (m_5_2 >> 29) + m_5_3 + ((m_5_4 & 0x1fffffff) << 29) +
                 (m_6_1 >> 29) + m_6_2 + ((m_6_3 & 0x1fffffff) << 29) +
                 (m_7_0 >> 29) + m_7_1 + ((m_7_2 & 0x1fffffff) << 29) +
                 c3;
        let c4 = d4 >> 58;
        let d5 = (m_2_7 >> 29) +
                 (m_3_6 >> 29) + m_3_7 +
                 (m_4_5 >> 29) + m_4_6 + ((m_4_7 & 0x1fffffff) << 29) +
                 (m_5_4 >> 29) + m_5_5 + ((m_5_6 & 0x1fffffff) << 29) +
                 (m_6_3 >> 29) + m_6_4 + ((m_6_5 & 0x1fffffff) << 29) +
                 (m_7_2 >> 29) + m_7_3 + ((m_7_4 & 0x1fffffff) << 29) +
                 c4;
        let c5 = d5 >> 58;
        let d6 = (m_4_7 >> 29) +
                 (m_5_6 >> 29) + m_5_7 +
                 (m_6_5 >> 29) + m_6_6 + ((m_6_7 & 0x1fffffff) << 29) +
                 (m_7_4 >> 29) + m_7_5 + ((m_7_6 & 0x1fffffff) << 29) +
                 c5;
        let c6 = d6 >> 58;
        let d7 = (m_6_7 >> 29) +
                 (m_7_6 >> 29) + m_7_7 +
                 c6;

        // Modular reduction by a pseudo-mersenne prime of the form 2^n - c.

        // These are the n low-order
        let l0_0 = d0 & 0x03ffffffffffffff;
        let l1_0 = d1 & 0x03ffffffffffffff;
        let l2_0 = d2 & 0x03ffffffffffffff;
        let l3_0 = d3 & 0x00007fffffffffff;

        // Shift the high bits down into another n-bit number.
        let h0_0 = ((d3 & 0x03ffffffffffffff) >> 47) |
                   ((d4 & 0x00007fffffffffff) << 11);
        let h1_0 = ((d4 & 0x03ffffffffffffff) >> 47) |
                   ((d5 & 0x00007fffffffffff) << 11);
        let h2_0 = ((d5 & 0x03ffffffffffffff) >> 47) |
                   ((d6 & 0x00007fffffffffff) << 11);
        let h3_0 = ((d6 & 0x03ffffffffffffff) >> 47) |
                   (d7 << 11);

        // Multiply by C
        let hc0_0 = h0_0 * C_VAL;
        let hc1_0 = h1_0 * C_VAL;
        let hc2_0 = h2_0 * C_VAL;
        let hc3_0 = h3_0 * C_VAL;

        // Add h and l.
        let kin_0 = hc3_0 >> 47;
        let s0_0 = l0_0 + hc0_0 + (kin_0 * C_VAL);
        let k0_0 = s0_0 >> 58;
        let s1_0 = l1_0 + hc1_0 + k0_0;
        let k1_0 = s1_0 >> 58;
        let s2_0 = l2_0 + hc2_0 + k1_0;
        let k2_0 = s2_0 >> 58;
        let s3_0 = l3_0 + (hc3_0 & 0x00007fffffffffff) + k2_0;

        self.0[0] = s0_0 & 0x03ffffffffffffff;
        self.0[1] = s1_0 & 0x03ffffffffffffff;
        self.0[2] = s2_0 & 0x03ffffffffffffff;
        self.0[3] = s3_0;
"

/-- `PrimeField::square`, /repo/src/field/mod_e221_3.rs:1000-1169. -/
def squareP : Prog := rust_prog% 3 3 47 "
        // Expand out to single digits
        let a0 = self.0[0] & 0x1fffffff;
        let a1 = self.0[0] >> 29;
        let a2 = self.0[1] & 0x1fffffff;
        let a3 = self.0[1] >> 29;
        let a4 = self.0[2] & 0x1fffffff;
        let a5 = self.0[2] >> 29;
        let a6 = self.0[3] & 0x1fffffff;
        let a7 = self.0[3] >> 29;

        // Combined multiples
        let m_0_0 = a0 * a0;
        let m_0_1 = a0 * a1;
        let m_0_2 = a0 * a2;
        let m_0_3 = a0 * a3;
        let m_0_4 = a0 * a4;
        let m_0_5 = a0 * a5;
        let m_0_6 = a0 * a6;
        let m_0_7 = a0 * a7;
        let m_1_0 = m_0_1;
        let m_1_1 = a1 * a1;
        let m_1_2 = a1 * a2;
        let m_1_3 = a1 * a3;
        let m_1_4 = a1 * a4;
        let m_1_5 = a1 * a5;
        let m_1_6 = a1 * a6;
        let m_1_7 = a1 * a7;
        let m_2_0 = m_0_2;
        let m_2_1 = m_1_2;
        let m_2_2 = a2 * a2;
        let m_2_3 = a2 * a3;
        let m_2_4 = a2 * a4;
        let m_2_5 = a2 * a5;
        let m_2_6 = a2 * a6;
        let m_2_7 = a2 * a7;
        let m_3_0 = m_0_3;
        let m_3_1 = m_1_3;
        let m_3_2 = m_2_3;
        let m_3_3 = a3 * a3;
        let m_3_4 = a3 * a4;
        let m_3_5 = a3 * a5;
        let m_3_6 = a3 * a6;
        let m_3_7 = a3 * a7;
        let m_4_0 = m_0_4;
        let m_4_1 = m_1_4;
        let m_4_2 = m_2_4;
        let m_4_3 = m_3_4;
        let m_4_4 = a4 * a4;
        let m_4_5 = a4 * a5;
        let m_4_6 = a4 * a6;
        let m_4_7 = a4 * a7;
        let m_5_0 = m_0_5;
        let m_5_1 = m_1_5;
        let m_5_2 = m_2_5;
        let m_5_3 = m_3_5;
        let m_5_4 = m_4_5;
        let m_5_5 = a5 * a5;
        let m_5_6 = a5 * a6;
        let m_5_7 = a5 * a7;
        let m_6_0 = m_0_6;
        let m_6_1 = m_1_6;
        let m_6_2 = m_2_6;
        let m_6_3 = m_3_6;
        let m_6_4 = m_4_6;
        let m_6_5 = m_5_6;
        let m_6_6 = a6 * a6;
        let m_6_7 = a6 * a7;
        let m_7_0 = m_0_7;
        let m_7_1 = m_1_7;
        let m_7_2 = m_2_7;
        let m_7_3 = m_3_7;
        let m_7_4 = m_4_7;
        let m_7_5 = m_5_7;
        let m_7_6 = m_6_7;
        let m_7_7 = a7 * a7;

        // Compute the 16-digit combined product using 64-bit operations.
        let d0 = m_0_0 + ((m_0_1 & 0x1fffffff) << 29) +
                 ((m_1_0 & 0x1fffffff) << 29);
        let c0 = d0 >> 58;
        let d1 = (m_0_1 >> 29) + m_0_2 + ((m_0_3 & 0x1fffffff) << 29) +
                 (m_1_0 >> 29) + m_1_1 + ((m_1_2 & 0x1fffffff) << 29) +
                 m_2_0 + ((m_2_1 & 0x1fffffff) << 29) +
                 ((m_3_0 & 0x1fffffff) << 29) + c0;
        let c1 = d1 >> 58;
        let d2 = (m_0_3 >> 29) + m_0_4 + ((m_0_5 & 0x1fffffff) << 29) +
                 (m_1_2 >> 29) + m_1_3 + ((m_1_4 & 0x1fffffff) << 29) +
                 (m_2_1 >> 29) + m_2_2 + ((m_2_3 & 0x1fffffff) << 29) +
                 (m_3_0 >> 29) + m_3_1 + ((m_3_2 & 0x1fffffff) << 29) +
                 m_4_0 + ((m_4_1 & 0x1fffffff) << 29) +
                 ((m_5_0 & 0x1fffffff) << 29) + c1;
        let c2 = d2 >> 58;
        let d3 = (m_0_5 >> 29) + m_0_6 + ((m_0_7 & 0x1fffffff) << 29) +
                 (m_1_4 >> 29) + m_1_5 + ((m_1_6 & 0x1fffffff) << 29) +
                 (m_2_3 >> 29) + m_2_4 + ((m_2_5 & 0x1fffffff) << 29) +
                 (m_3_2 >> 29) + m_3_3 + ((m_3_4 & 0x1fffffff) << 29) +
                 (m_4_1 >> 29) + m_4_2 + ((m_4_3 & 0x1fffffff) << 29) +
                 (m_5_0 >> 29) + m_5_1 + ((m_5_2 & 0x1fffffff) << 29) +
                 m_6_0 + ((m_6_1 & 0x1fffffff) << 29) +
                 ((m_7_0 & 0x1fffffff) << 29) + c2;
        let c3 = d3 >> 58;
        let d4 = (m_0_7 >> 29) +
                 (m_1_6 >> 29) + m_1_7 +
                 (m_2_5 >> 29) + m_2_6 + ((m_2_7 & 0x1fffffff) << 29) +
                 (m_3_4 >> 29) + m_3_5 + ((m_3_6 & 0x1fffffff) << 29) +
                 (m_4_3 >> 29) + m_4_4 + ((m_4_5 & 0x1fffffff) << 29) +
                 (m_5_2 >> 29) + m_5_3 + ((m_5_4 & 0x1fffffff) << 29) +
                 (m_6_1 >> 29) + m_6_2 + ((m_6_3 & 0x1fffffff) << 29) +
                 (m_7_0 >> 29) + m_7_1 + ((m_7_2 & 0x1fffffff) << 29) +
                 c3;
        let c4 = d4 >> 58;
        let d5 = (m_2_7 >> 29) +
                 (m_3_6 >> 29) + m_3_7 +
                 (m_4_5 >> 29) + m_4_6 + ((m_4_7 & 0x1fffffff) << 29) +
                 (m_5_4 >> 29) + m_5_5 + ((m_5_6 & 0x1fffffff) << 29) +
                 (m_6_3 >> 29) + m_6_4 + ((m_6_5 & 0x1fffffff) << 29) +
                 (m_7_2 >> 29) + m_7_3 + ((m_7_4 & 0x1fffffff) << 29) +
                 c4;
        let c5 = d5 >> 58;
        let d6 = (m_4_7 >> 29) +
                 (m_5_6 >> 29) + m_5_7 +
                 (m_6_5 >> 29) + m_6_6 + ((m_6_7 & 0x1fffffff) << 29) +
                 (m_7_4 >> 29) + m_7_5 + ((m_7_6 & 0x1fffffff) << 29) +
                 c5;
        let c6 = d6 >> 58;
        let d7 = (m_6_7 >> 29) +
                 (m_7_6 >> 29) + m_7_7 +
                 c6;

        // Modular reduction by a pseudo-mersenne prime of the form 2^n - c.

        // These are the n low-order
        let l0_0 = d0 & 0x03ffffffffffffff;
        let l1_0 = d1 & 0x03ffffffffffffff;
        let l2_0 = d2 & 0x03ffffffffffffff;
        let l3_0 = d3 & 0x00007fffffffffff;


        // Shift the high bits down into another n-bit number.
        let h0_0 = ((d3 & 0x03ffffffffffffff) >> 47) |
                   ((d4 & 0x00007fffffffffff) << 11);
        let h1_0 = ((d4 & 0x03ffffffffffffff) >> 47) |
                   ((d5 & 0x00007fffffffffff) << 11);
        let h2_0 = ((d5 & 0x03ffffffffffffff) >> 47) |
                   ((d6 & 0x00007fffffffffff) << 11);
        let h3_0 = ((d6 & 0x03ffffffffffffff) >> 47) |
                   (d7 << 11);

        // Multiply by C
        let hc0_0 = h0_0 * C_VAL;
        let hc1_0 = h1_0 * C_VAL;
        let hc2_0 = h2_0 * C_VAL;
        let hc3_0 = h3_0 * C_VAL;

        // Add h and l.
        let kin_0 = hc3_0 >> 47;
        let s0_0 = l0_0 + hc0_0 + (kin_0 * C_VAL);
        let k0_0 = s0_0 >> 58;
        let s1_0 = l1_0 + hc1_0 + k0_0;
        let k1_0 = s1_0 >> 58;
        let s2_0 = l2_0 + hc2_0 + k1_0;
        let k2_0 = s2_0 >> 58;
        let s3_0 = l3_0 + (hc3_0 & 0x00007fffffffffff) + k2_0;

        self.0[0] = s0_0 & 0x03ffffffffffffff;
        self.0[1] = s1_0 & 0x03ffffffffffffff;
        self.0[2] = s2_0 & 0x03ffffffffffffff;
        self.0[3] = s3_0;
"

/-- `PrimeField::small_add_assign`, /repo/src/field/mod_e221_3.rs:1241-1262. -/
def smallAddP : Prog := rust_prog% 3 3 47 "
        let a0 = self.0[0];
        let a1 = self.0[1];
        let a2 = self.0[2];
        let a3 = self.0[3] & 0x00007fffffffffff;

        let b = i64::from(rhs);

        let cin = self.carry_out();
        let s0 = a0 + b + (cin * C_VAL);
        let c0 = s0 >> 58;
        let s1 = a1 + c0;
        let c1 = s1 >> 58;
        let s2 = a2 + c1;
        let c2 = s2 >> 58;
        let s3 = a3 + c2;

        self.0[0] = s0 & 0x03ffffffffffffff;
        self.0[1] = s1 & 0x03ffffffffffffff;
        self.0[2] = s2 & 0x03ffffffffffffff;
        self.0[3] = s3;
"

/-- `PrimeField::small_sub_assign`, /repo/src/field/mod_e221_3.rs:1272-1293. -/
def smallSubP : Prog := rust_prog% 3 3 47 "
        let a0 = self.0[0];
        let a1 = self.0[1];
        let a2 = self.0[2];
        let a3 = self.0[3] & 0x00007fffffffffff;

        let b = i64::from(rhs);

        let cin = self.carry_out();
        let s0 = a0 - b + (cin * C_VAL);
        let c0 = s0 >> 58;
        let s1 = a1 + c0;
        let c1 = s1 >> 58;
        let s2 = a2 + c1;
        let c2 = s2 >> 58;
        let s3 = a3 + c2;

        self.0[0] = s0 & 0x03ffffffffffffff;
        self.0[1] = s1 & 0x03ffffffffffffff;
        self.0[2] = s2 & 0x03ffffffffffffff;
        self.0[3] = s3;
"

/-- `PrimeField::small_mul_assign`, /repo/src/field/mod_e221_3.rs:1303-1337. -/
def smallMulP : Prog := rust_prog% 3 3 47 "
        let a0 = self.0[0] & 0x1fffffff;
        let a1 = self.0[0] >> 29;
        let a2 = self.0[1] & 0x1fffffff;
        let a3 = self.0[1] >> 29;
        let a4 = self.0[2] & 0x1fffffff;
        let a5 = self.0[2] >> 29;
        let a6 = self.0[3] & 0x1fffffff;
        let a7 = self.0[3] >> 29;

        let b = i64::from(rhs);

        let m0 = a0 * b;
        let m1 = a1 * b;
        let m2 = a2 * b;
        let m3 = a3 * b;
        let m4 = a4 * b;
        let m5 = a5 * b;
        let m6 = a6 * b;
        let m7 = a7 * b;

        let cin = self.carry_out();
        let d0 = m0 + ((m1 & 0x1fffffff) << 29) + (cin * C_VAL);
        let c0 = d0 >> 58;
        let d1 = (m1 >> 29) + m2 + ((m3 & 0x1fffffff) << 29) + c0;
        let c1 = d1 >> 58;
        let d2 = (m3 >> 29) + m4 + ((m5 & 0x1fffffff) << 29) + c1;
        let c2 = d2 >> 58;
        let d3 = (m5 >> 29) + m6 + (m7 << 29) + c2;

        self.0[0] = d0 & 0x03ffffffffffffff;
        self.0[1] = d1 & 0x03ffffffffffffff;
        self.0[2] = d2 & 0x03ffffffffffffff;
        self.0[3] = d3;
"

/-- `Pack::unpack`, /repo/src/field/mod_e221_3.rs:763-795. -/
def unpackP : Prog := rust_prog% 3 3 47 "
        self.0[0] = ((bytes[0] as i64) & 0x00000000000000ff) |
                  (((bytes[1] as i64) << 8) & 0x000000000000ff00) |
                  (((bytes[2] as i64) << 16) & 0x0000000000ff0000) |
                  (((bytes[3] as i64) << 24) & 0x00000000ff000000) |
                  (((bytes[4] as i64) << 32) & 0x000000ff00000000) |
                  (((bytes[5] as i64) << 40) & 0x0000ff0000000000) |
                  (((bytes[6] as i64) << 48) & 0x00ff000000000000) |
                  (((bytes[7] as i64) << 56) & 0x0300000000000000);
        self.0[1] = (((bytes[7] as i64) >> 2) & 0x000000000000003f) |
                  (((bytes[8] as i64) << 6) & 0x0000000000003fc0) |
                  (((bytes[9] as i64) << 14) & 0x00000000003fc000) |
                  (((bytes[10] as i64) << 22) & 0x000000003fc00000) |
                  (((bytes[11] as i64) << 30) & 0x0000003fc0000000) |
                  (((bytes[12] as i64) << 38) & 0x00003fc000000000) |
                  (((bytes[13] as i64) << 46) & 0x003fc00000000000) |
                  (((bytes[14] as i64) << 54) & 0x03c0000000000000);
        self.0[2] = (((bytes[14] as i64) >> 4) & 0x000000000000000f) |
                  (((bytes[15] as i64) << 4) & 0x0000000000000ff0) |
                  (((bytes[16] as i64) << 12) & 0x00000000000ff000) |
                  (((bytes[17] as i64) << 20) & 0x000000000ff00000) |
                  (((bytes[18] as i64) << 28) & 0x0000000ff0000000) |
                  (((bytes[19] as i64) << 36) & 0x00000ff000000000) |
                  (((bytes[20] as i64) << 44) & 0x000ff00000000000) |
                  (((bytes[21] as i64) << 52) & 0x03f0000000000000);
        self.0[3] = (((bytes[21] as i64) >> 6) & 0x0000000000000003) |
                  (((bytes[22] as i64) << 2) & 0x00000000000003fc) |
                  (((bytes[23] as i64) << 10) & 0x000000000003fc00) |
                  (((bytes[24] as i64) << 18) & 0x0000000003fc0000) |
                  (((bytes[25] as i64) << 26) & 0x00000003fc000000) |
                  (((bytes[26] as i64) << 34) & 0x000003fc00000000) |
                  (((bytes[27] as i64) << 42) & 0x00007c0000000000);
"

/-- `Pack::pack_normalized`, /repo/src/field/mod_e221_3.rs:808-840. -/
def packP : Prog := rust_prog% 3 3 47 "
        bytes[0] = (self.0[0] & 0b11111111) as u8;
        bytes[1] = ((self.0[0] >> 8) & 0b11111111) as u8;
        bytes[2] = ((self.0[0] >> 16) & 0b11111111) as u8;
        bytes[3] = ((self.0[0] >> 24) & 0b11111111) as u8;
        bytes[4] = ((self.0[0] >> 32) & 0b11111111) as u8;
        bytes[5] = ((self.0[0] >> 40) & 0b11111111) as u8;
        bytes[6] = ((self.0[0] >> 48) & 0b11111111) as u8;
        bytes[7] = (((self.0[0] >> 56) & 0b00000011) as u8) |
                   (((self.0[1] << 2) & 0b11111100) as u8);
        bytes[8] = ((self.0[1] >> 6) & 0b11111111) as u8;
        bytes[9] = ((self.0[1] >> 14) & 0b11111111) as u8;
        bytes[10] = ((self.0[1] >> 22) & 0b11111111) as u8;
        bytes[11] = ((self.0[1] >> 30) & 0b11111111) as u8;
        bytes[12] = ((self.0[1] >> 38) & 0b11111111) as u8;
        bytes[13] = ((self.0[1] >> 46) & 0b11111111) as u8;
        bytes[14] = (((self.0[1] >> 54) & 0b00001111) as u8) |
                    (((self.0[2] << 4) & 0b11110000) as u8);
        bytes[15] = ((self.0[2] >> 4) & 0b11111111) as u8;
        bytes[16] = ((self.0[2] >> 12) & 0b11111111) as u8;
        bytes[17] = ((self.0[2] >> 20) & 0b11111111) as u8;
        bytes[18] = ((self.0[2] >> 28) & 0b11111111) as u8;
        bytes[19] = ((self.0[2] >> 36) & 0b11111111) as u8;
        bytes[20] = ((self.0[2] >> 44) & 0b11111111) as u8;
        bytes[21] = (((self.0[2] >> 52) & 0b00111111) as u8) |
                    (((self.0[3] << 6) & 0b11000000) as u8);
        bytes[22] = ((self.0[3] >> 2) & 0b11111111) as u8;
        bytes[23] = ((self.0[3] >> 10) & 0b11111111) as u8;
        bytes[24] = ((self.0[3] >> 18) & 0b11111111) as u8;
        bytes[25] = ((self.0[3] >> 26) & 0b11111111) as u8;
        bytes[26] = ((self.0[3] >> 34) & 0b11111111) as u8;
        bytes[27] = ((self.0[3] >> 42) & 0b00011111) as u8;
"

/-- `PrimeField::invert`, /repo/src/field/mod_e221_3.rs:1179-1195. -/
def invertC : Chain := rust_chain% "
        // First digit is 1.
        let mut sqval = self.clone();

        // Second digit is 1.
        sqval.square();
        *self *= &sqval;

        // Third digit is 0.
        sqval.square();

        // All the remaining digits are 1.
        for _ in 3..221 {
            sqval.square();
            *self *= &sqval;
        }
"

/-- `PrimeField::legendre`, /repo/src/field/mod_e221_3.rs:1205-1219. -/
def legendreC : Chain := rust_chain% "
        // First digit is zero

        // Second digit is one
        let mut out = self.squared();
        let mut sqval = out.clone();

        // All the remaining digits are 1.
        for _ in 2..220 {
            sqval.square();
            out *= &sqval;
        }

        out
"

/-- `PrimeField::sqrt`, /repo/src/field/mod_e221_3.rs:1221-1239. -/
def sqrtC : Chain := rust_chain% "
        // Legendre's formula for 5 mod 8 primes.

        let mut out = self.clone();

        // All digits are 0 except the last.
        for _ in 0..218 {
            out.square();
        }

        let mut coeff = self.quartic_legendre();

        coeff -= &ONE;
        coeff *= &M_HALF;
        coeff *= &COEFF;
        coeff += &ONE;

        &out * &coeff
"

/-- `quartic_legendre`, /repo/src/field/mod_e221_3.rs:139-151. -/
def quarticC : Chain := rust_chain% "
        // First digit is 1.
        let mut out = self.clone();
        let mut sqval = out.clone();

        // All the remaining digits are 1.
        for _ in 1..219 {
            sqval.square();
            out *= &sqval;
        }

        out
"

/-- The module as a whole: `nbits` line 936, `nbytes` line 842, `bit_normalized`
line 939. -/
def code : FieldCode where
  typeName := "Mod_e221_3"
  limbs := 4
  cval := 3
  carryLimb := 3
  carryShift := 47
  nbits := 221
  nbytes := 28
  limbBits := 58
  ZERO := ZERO
  ONE := ONE
  M_ONE := M_ONE
  MODULUS := MODULUS
  M_HALF := some M_HALF
  COEFF := some COEFF
  addP := addP
  subP := subP
  mulP := mulP
  squareP := squareP
  smallAddP := smallAddP
  smallSubP := smallSubP
  smallMulP := smallMulP
  unpackP := unpackP
  packP := packP
  invertC := invertC
  legendreC := legendreC
  sqrtC := sqrtC
  quarticC := some quarticC

end Verif.Fields.E221_3
