import Verif.Curve.Curves

/-!
# The code with its defects repaired

The refuted properties (`DESIGN.md`, section 4) are not refuted because they ask for too much: with
the edits below, and no others, the functions have them in full (C57).  Every text is that of the
source with the line marked by a comment changed; the definitions here describe no code of the
repository.

* `sub_assign`: the carry of the right operand is subtracted;
* `neg`: `ZERO - self`;
* `normalize`: `*self += &MODULUS;` first;
* `mul_assign` of `Mod_e222_117`: the high digit of `hc7_0` is added to `kin_0`;
* `mul_assign` of `Mod_e251_9`: `h4_0 = d8 >> 27`, as in `square`, without the mask;
* `small_mul_assign`: `*self *= &(&ZERO + rhs)`;
* `unpack` of `Mod_e383_187`: the last byte is masked with `0x7f`;
* `EdwardsExtended::zero` and `init`: `t` is `x y`;
* `triple`: `g = aa + xb`;
* the ladder: the two masks are exchanged.
-/

namespace Verif.Repaired

/-- `sub_assign`, /repo/src/field/mod_e221_3.rs:356-380, repaired. -/
def sub_e221_3 : Prog := rust_prog% 3 3 47 "
        let a0 = self.0[0];
        let a1 = self.0[1];
        let a2 = self.0[2];
        let a3 = self.0[3] & 0x00007fffffffffff;

        let b0 = rhs.0[0];
        let b1 = rhs.0[1];
        let b2 = rhs.0[2];
        let b3 = rhs.0[3] & 0x00007fffffffffff;

        // repaired
        let cin = self.carry_out() - rhs.carry_out();
        let s0 = a0 - b0 + (cin * C_VAL);
        let c0 = s0 >> 58;
        let s1 = a1 - b1 + c0;
        let c1 = s1 >> 58;
        let s2 = a2 - b2 + c1;
        let c2 = s2 >> 58;
        let s3 = a3 - b3 + c2;

        self.0[0] = s0 & 0x03ffffffffffffff;
        self.0[1] = s1 & 0x03ffffffffffffff;
        self.0[2] = s2 & 0x03ffffffffffffff;
        self.0[3] = s3;
"

/-- `sub_assign`, /repo/src/field/mod_e222_117.rs:317-341, repaired. -/
def sub_e222_117 : Prog := rust_prog% 117 3 48 "
        let a0 = self.0[0];
        let a1 = self.0[1];
        let a2 = self.0[2];
        let a3 = self.0[3] & 0x0000ffffffffffff;

        let b0 = rhs.0[0];
        let b1 = rhs.0[1];
        let b2 = rhs.0[2];
        let b3 = rhs.0[3] & 0x0000ffffffffffff;

        // repaired
        let cin = self.carry_out() - rhs.carry_out();
        let s0 = a0 - b0 + (cin * C_VAL);
        let c0 = s0 >> 58;
        let s1 = a1 - b1 + c0;
        let c1 = s1 >> 58;
        let s2 = a2 - b2 + c1;
        let c2 = s2 >> 58;
        let s3 = a3 - b3 + c2;

        self.0[0] = s0 & 0x03ffffffffffffff;
        self.0[1] = s1 & 0x03ffffffffffffff;
        self.0[2] = s2 & 0x03ffffffffffffff;
        self.0[3] = s3;
"

/-- `sub_assign`, /repo/src/field/mod_e251_9.rs:334-363, repaired. -/
def sub_e251_9 : Prog := rust_prog% 9 4 27 "
        let a0 = self.0[0];
        let a1 = self.0[1];
        let a2 = self.0[2];
        let a3 = self.0[3];
        let a4 = self.0[4] & 0x0000000007ffffff;

        let b0 = rhs.0[0];
        let b1 = rhs.0[1];
        let b2 = rhs.0[2];
        let b3 = rhs.0[3];
        let b4 = rhs.0[4] & 0x0000000007ffffff;

        // repaired
        let cin = self.carry_out() - rhs.carry_out();
        let s0 = a0 - b0 + (cin * C_VAL);
        let c0 = s0 >> 56;
        let s1 = a1 - b1 + c0;
        let c1 = s1 >> 56;
        let s2 = a2 - b2 + c1;
        let c2 = s2 >> 56;
        let s3 = a3 - b3 + c2;
        let c3 = s3 >> 56;
        let s4 = a4 - b4 + c3;

        self.0[0] = s0 & 0x00ffffffffffffff;
        self.0[1] = s1 & 0x00ffffffffffffff;
        self.0[2] = s2 & 0x00ffffffffffffff;
        self.0[3] = s3 & 0x00ffffffffffffff;
        self.0[4] = s4;
"

/-- `sub_assign`, /repo/src/field/mod_e255_19.rs:354-383, repaired. -/
def sub_e255_19 : Prog := rust_prog% 19 4 31 "
        let a0 = self.0[0];
        let a1 = self.0[1];
        let a2 = self.0[2];
        let a3 = self.0[3];
        let a4 = self.0[4] & 0x000000007fffffff;

        let b0 = rhs.0[0];
        let b1 = rhs.0[1];
        let b2 = rhs.0[2];
        let b3 = rhs.0[3];
        let b4 = rhs.0[4] & 0x000000007fffffff;

        // repaired
        let cin = self.carry_out() - rhs.carry_out();
        let s0 = a0 - b0 + (cin * C_VAL);
        let c0 = s0 >> 56;
        let s1 = a1 - b1 + c0;
        let c1 = s1 >> 56;
        let s2 = a2 - b2 + c1;
        let c2 = s2 >> 56;
        let s3 = a3 - b3 + c2;
        let c3 = s3 >> 56;
        let s4 = a4 - b4 + c3;

        self.0[0] = s0 & 0x00ffffffffffffff;
        self.0[1] = s1 & 0x00ffffffffffffff;
        self.0[2] = s2 & 0x00ffffffffffffff;
        self.0[3] = s3 & 0x00ffffffffffffff;
        self.0[4] = s4;
"

/-- `sub_assign`, /repo/src/field/mod_e382_105.rs:344-383, repaired. -/
def sub_e382_105 : Prog := rust_prog% 105 6 46 "
        let a0 = self.0[0];
        let a1 = self.0[1];
        let a2 = self.0[2];
        let a3 = self.0[3];
        let a4 = self.0[4];
        let a5 = self.0[5];
        let a6 = self.0[6] & 0x00003fffffffffff;

        let b0 = rhs.0[0];
        let b1 = rhs.0[1];
        let b2 = rhs.0[2];
        let b3 = rhs.0[3];
        let b4 = rhs.0[4];
        let b5 = rhs.0[5];
        let b6 = rhs.0[6] & 0x00003fffffffffff;

        // repaired
        let cin = self.carry_out() - rhs.carry_out();
        let s0 = a0 - b0 + (cin * C_VAL);
        let c0 = s0 >> 56;
        let s1 = a1 - b1 + c0;
        let c1 = s1 >> 56;
        let s2 = a2 - b2 + c1;
        let c2 = s2 >> 56;
        let s3 = a3 - b3 + c2;
        let c3 = s3 >> 56;
        let s4 = a4 - b4 + c3;
        let c4 = s4 >> 56;
        let s5 = a5 - b5 + c4;
        let c5 = s5 >> 56;
        let s6 = a6 - b6 + c5;

        self.0[0] = s0 & 0x00ffffffffffffff;
        self.0[1] = s1 & 0x00ffffffffffffff;
        self.0[2] = s2 & 0x00ffffffffffffff;
        self.0[3] = s3 & 0x00ffffffffffffff;
        self.0[4] = s4 & 0x00ffffffffffffff;
        self.0[5] = s5 & 0x00ffffffffffffff;
        self.0[6] = s6;
"

/-- `sub_assign`, /repo/src/field/mod_e383_187.rs:393-432, repaired. -/
def sub_e383_187 : Prog := rust_prog% 187 6 47 "
        let a0 = self.0[0];
        let a1 = self.0[1];
        let a2 = self.0[2];
        let a3 = self.0[3];
        let a4 = self.0[4];
        let a5 = self.0[5];
        let a6 = self.0[6] & 0x00007fffffffffff;

        let b0 = rhs.0[0];
        let b1 = rhs.0[1];
        let b2 = rhs.0[2];
        let b3 = rhs.0[3];
        let b4 = rhs.0[4];
        let b5 = rhs.0[5];
        let b6 = rhs.0[6] & 0x00007fffffffffff;

        // repaired
        let cin = self.carry_out() - rhs.carry_out();
        let s0 = a0 - b0 + (cin * C_VAL);
        let c0 = s0 >> 56;
        let s1 = a1 - b1 + c0;
        let c1 = s1 >> 56;
        let s2 = a2 - b2 + c1;
        let c2 = s2 >> 56;
        let s3 = a3 - b3 + c2;
        let c3 = s3 >> 56;
        let s4 = a4 - b4 + c3;
        let c4 = s4 >> 56;
        let s5 = a5 - b5 + c4;
        let c5 = s5 >> 56;
        let s6 = a6 - b6 + c5;

        self.0[0] = s0 & 0x00ffffffffffffff;
        self.0[1] = s1 & 0x00ffffffffffffff;
        self.0[2] = s2 & 0x00ffffffffffffff;
        self.0[3] = s3 & 0x00ffffffffffffff;
        self.0[4] = s4 & 0x00ffffffffffffff;
        self.0[5] = s5 & 0x00ffffffffffffff;
        self.0[6] = s6;
"

/-- `sub_assign`, /repo/src/field/mod_e414_17.rs:348-392, repaired. -/
def sub_e414_17 : Prog := rust_prog% 17 7 22 "
        let a0 = self.0[0];
        let a1 = self.0[1];
        let a2 = self.0[2];
        let a3 = self.0[3];
        let a4 = self.0[4];
        let a5 = self.0[5];
        let a6 = self.0[6];
        let a7 = self.0[7] & 0x00000000003fffff;

        let b0 = rhs.0[0];
        let b1 = rhs.0[1];
        let b2 = rhs.0[2];
        let b3 = rhs.0[3];
        let b4 = rhs.0[4];
        let b5 = rhs.0[5];
        let b6 = rhs.0[6];
        let b7 = rhs.0[7] & 0x00000000003fffff;

        // repaired
        let cin = self.carry_out() - rhs.carry_out();
        let s0 = a0 - b0 + (cin * C_VAL);
        let c0 = s0 >> 56;
        let s1 = a1 - b1 + c0;
        let c1 = s1 >> 56;
        let s2 = a2 - b2 + c1;
        let c2 = s2 >> 56;
        let s3 = a3 - b3 + c2;
        let c3 = s3 >> 56;
        let s4 = a4 - b4 + c3;
        let c4 = s4 >> 56;
        let s5 = a5 - b5 + c4;
        let c5 = s5 >> 56;
        let s6 = a6 - b6 + c5;
        let c6 = s6 >> 56;
        let s7 = a7 - b7 + c6;

        self.0[0] = s0 & 0x00ffffffffffffff;
        self.0[1] = s1 & 0x00ffffffffffffff;
        self.0[2] = s2 & 0x00ffffffffffffff;
        self.0[3] = s3 & 0x00ffffffffffffff;
        self.0[4] = s4 & 0x00ffffffffffffff;
        self.0[5] = s5 & 0x00ffffffffffffff;
        self.0[6] = s6 & 0x00ffffffffffffff;
        self.0[7] = s7;
"

/-- `sub_assign`, /repo/src/field/mod_e511_187.rs:396-450, repaired. -/
def sub_e511_187 : Prog := rust_prog% 187 9 25 "
        let a0 = self.0[0];
        let a1 = self.0[1];
        let a2 = self.0[2];
        let a3 = self.0[3];
        let a4 = self.0[4];
        let a5 = self.0[5];
        let a6 = self.0[6];
        let a7 = self.0[7];
        let a8 = self.0[8];
        let a9 = self.0[9] & 0x0000000001ffffff;

        let b0 = rhs.0[0];
        let b1 = rhs.0[1];
        let b2 = rhs.0[2];
        let b3 = rhs.0[3];
        let b4 = rhs.0[4];
        let b5 = rhs.0[5];
        let b6 = rhs.0[6];
        let b7 = rhs.0[7];
        let b8 = rhs.0[8];
        let b9 = rhs.0[9] & 0x0000000001ffffff;

        // repaired
        let cin = self.carry_out() - rhs.carry_out();
        let s0 = a0 - b0 + (cin * C_VAL);
        let c0 = s0 >> 54;
        let s1 = a1 - b1 + c0;
        let c1 = s1 >> 54;
        let s2 = a2 - b2 + c1;
        let c2 = s2 >> 54;
        let s3 = a3 - b3 + c2;
        let c3 = s3 >> 54;
        let s4 = a4 - b4 + c3;
        let c4 = s4 >> 54;
        let s5 = a5 - b5 + c4;
        let c5 = s5 >> 54;
        let s6 = a6 - b6 + c5;
        let c6 = s6 >> 54;
        let s7 = a7 - b7 + c6;
        let c7 = s7 >> 54;
        let s8 = a8 - b8 + c7;
        let c8 = s8 >> 54;
        let s9 = a9 - b9 + c8;

        self.0[0] = s0 & 0x003fffffffffffff;
        self.0[1] = s1 & 0x003fffffffffffff;
        self.0[2] = s2 & 0x003fffffffffffff;
        self.0[3] = s3 & 0x003fffffffffffff;
        self.0[4] = s4 & 0x003fffffffffffff;
        self.0[5] = s5 & 0x003fffffffffffff;
        self.0[6] = s6 & 0x003fffffffffffff;
        self.0[7] = s7 & 0x003fffffffffffff;
        self.0[8] = s8 & 0x003fffffffffffff;
        self.0[9] = s9;
"

/-- `sub_assign`, /repo/src/field/mod_e521_1.rs:365-419, repaired. -/
def sub_e521_1 : Prog := rust_prog% 1 9 35 "
        let a0 = self.0[0];
        let a1 = self.0[1];
        let a2 = self.0[2];
        let a3 = self.0[3];
        let a4 = self.0[4];
        let a5 = self.0[5];
        let a6 = self.0[6];
        let a7 = self.0[7];
        let a8 = self.0[8];
        let a9 = self.0[9] & 0x00000007ffffffff;

        let b0 = rhs.0[0];
        let b1 = rhs.0[1];
        let b2 = rhs.0[2];
        let b3 = rhs.0[3];
        let b4 = rhs.0[4];
        let b5 = rhs.0[5];
        let b6 = rhs.0[6];
        let b7 = rhs.0[7];
        let b8 = rhs.0[8];
        let b9 = rhs.0[9] & 0x00000007ffffffff;

        // repaired
        let cin = self.carry_out() - rhs.carry_out();
        let s0 = a0 - b0 + (cin * C_VAL);
        let c0 = s0 >> 54;
        let s1 = a1 - b1 + c0;
        let c1 = s1 >> 54;
        let s2 = a2 - b2 + c1;
        let c2 = s2 >> 54;
        let s3 = a3 - b3 + c2;
        let c3 = s3 >> 54;
        let s4 = a4 - b4 + c3;
        let c4 = s4 >> 54;
        let s5 = a5 - b5 + c4;
        let c5 = s5 >> 54;
        let s6 = a6 - b6 + c5;
        let c6 = s6 >> 54;
        let s7 = a7 - b7 + c6;
        let c7 = s7 >> 54;
        let s8 = a8 - b8 + c7;
        let c8 = s8 >> 54;
        let s9 = a9 - b9 + c8;

        self.0[0] = s0 & 0x003fffffffffffff;
        self.0[1] = s1 & 0x003fffffffffffff;
        self.0[2] = s2 & 0x003fffffffffffff;
        self.0[3] = s3 & 0x003fffffffffffff;
        self.0[4] = s4 & 0x003fffffffffffff;
        self.0[5] = s5 & 0x003fffffffffffff;
        self.0[6] = s6 & 0x003fffffffffffff;
        self.0[7] = s7 & 0x003fffffffffffff;
        self.0[8] = s8 & 0x003fffffffffffff;
        self.0[9] = s9;
"

/-- `unpack`, /repo/src/field/mod_e383_187.rs:1112-1161, repaired. -/
def unpack_e383_187 : Prog := rust_prog% 187 6 47 "
        self.0[0] = ((bytes[0] as i64) & 0x00000000000000ff) |
                  (((bytes[1] as i64) << 8) & 0x000000000000ff00) |
                  (((bytes[2] as i64) << 16) & 0x0000000000ff0000) |
                  (((bytes[3] as i64) << 24) & 0x00000000ff000000) |
                  (((bytes[4] as i64) << 32) & 0x000000ff00000000) |
                  (((bytes[5] as i64) << 40) & 0x0000ff0000000000) |
                  (((bytes[6] as i64) << 48) & 0x00ff000000000000);
        self.0[1] = ((bytes[7] as i64) & 0x00000000000000ff) |
                  (((bytes[8] as i64) << 8) & 0x000000000000ff00) |
                  (((bytes[9] as i64) << 16) & 0x0000000000ff0000) |
                  (((bytes[10] as i64) << 24) & 0x00000000ff000000) |
                  (((bytes[11] as i64) << 32) & 0x000000ff00000000) |
                  (((bytes[12] as i64) << 40) & 0x0000ff0000000000) |
                  (((bytes[13] as i64) << 48) & 0x00ff000000000000);
        self.0[2] = ((bytes[14] as i64) & 0x00000000000000ff) |
                  (((bytes[15] as i64) << 8) & 0x000000000000ff00) |
                  (((bytes[16] as i64) << 16) & 0x0000000000ff0000) |
                  (((bytes[17] as i64) << 24) & 0x00000000ff000000) |
                  (((bytes[18] as i64) << 32) & 0x000000ff00000000) |
                  (((bytes[19] as i64) << 40) & 0x0000ff0000000000) |
                  (((bytes[20] as i64) << 48) & 0x00ff000000000000);
        self.0[3] = ((bytes[21] as i64) & 0x00000000000000ff) |
                  (((bytes[22] as i64) << 8) & 0x000000000000ff00) |
                  (((bytes[23] as i64) << 16) & 0x0000000000ff0000) |
                  (((bytes[24] as i64) << 24) & 0x00000000ff000000) |
                  (((bytes[25] as i64) << 32) & 0x000000ff00000000) |
                  (((bytes[26] as i64) << 40) & 0x0000ff0000000000) |
                  (((bytes[27] as i64) << 48) & 0x00ff000000000000);
        self.0[4] = ((bytes[28] as i64) & 0x00000000000000ff) |
                  (((bytes[29] as i64) << 8) & 0x000000000000ff00) |
                  (((bytes[30] as i64) << 16) & 0x0000000000ff0000) |
                  (((bytes[31] as i64) << 24) & 0x00000000ff000000) |
                  (((bytes[32] as i64) << 32) & 0x000000ff00000000) |
                  (((bytes[33] as i64) << 40) & 0x0000ff0000000000) |
                  (((bytes[34] as i64) << 48) & 0x00ff000000000000);
        self.0[5] = ((bytes[35] as i64) & 0x00000000000000ff) |
                  (((bytes[36] as i64) << 8) & 0x000000000000ff00) |
                  (((bytes[37] as i64) << 16) & 0x0000000000ff0000) |
                  (((bytes[38] as i64) << 24) & 0x00000000ff000000) |
                  (((bytes[39] as i64) << 32) & 0x000000ff00000000) |
                  (((bytes[40] as i64) << 40) & 0x0000ff0000000000) |
                  (((bytes[41] as i64) << 48) & 0x00ff000000000000);
        self.0[6] = ((bytes[42] as i64) & 0x00000000000000ff) |
                  (((bytes[43] as i64) << 8) & 0x000000000000ff00) |
                  (((bytes[44] as i64) << 16) & 0x0000000000ff0000) |
                  (((bytes[45] as i64) << 24) & 0x00000000ff000000) |
                  (((bytes[46] as i64) << 32) & 0x000000ff00000000) |
                  // repaired
                  (((bytes[47] as i64) << 40) & 0x00007f0000000000);
"

/-- `mul_assign`, /repo/src/field/mod_e222_117.rs:453-648, repaired. -/
def mul_e222_117 : Prog := rust_prog% 117 3 48 "
        let a0 = self.0[0] & 0x1fffffff;
        let a1 = self.0[0] >> 29;
        let a2 = self.0[1] & 0x1fffffff;
        let a3 = self.0[1] >> 29;
        let a4 = self.0[2] & 0x1fffffff;
        let a5 = self.0[2] >> 29;
        let a6 = self.0[3] & 0x1fffffff;
        let a7 = self.0[3] >> 29;

        let b0 = rhs.0[0] & 0x1fffffff;
        let b1 = rhs.0[0] >> 29;
        let b2 = rhs.0[1] & 0x1fffffff;
        let b3 = rhs.0[1] >> 29;
        let b4 = rhs.0[2] & 0x1fffffff;
        let b5 = rhs.0[2] >> 29;
        let b6 = rhs.0[3] & 0x1fffffff;
        let b7 = rhs.0[3] >> 29;

        // Combined multiples
        let m_0_0 = a0 * b0;
        let m_0_1 = a0 * b1;
        let m_0_2 = a0 * b2;
        let m_0_3 = a0 * b3;
        let m_0_4 = a0 * b4;
        let m_0_5 = a0 * b5;
        let m_0_6 = a0 * b6;
        let m_0_7 = a0 * b7;
        let m_1_0 = a1 * b0;
        let m_1_1 = a1 * b1;
        let m_1_2 = a1 * b2;
        let m_1_3 = a1 * b3;
        let m_1_4 = a1 * b4;
        let m_1_5 = a1 * b5;
        let m_1_6 = a1 * b6;
        let m_1_7 = a1 * b7;
        let m_2_0 = a2 * b0;
        let m_2_1 = a2 * b1;
        let m_2_2 = a2 * b2;
        let m_2_3 = a2 * b3;
        let m_2_4 = a2 * b4;
        let m_2_5 = a2 * b5;
        let m_2_6 = a2 * b6;
        let m_2_7 = a2 * b7;
        let m_3_0 = a3 * b0;
        let m_3_1 = a3 * b1;
        let m_3_2 = a3 * b2;
        let m_3_3 = a3 * b3;
        let m_3_4 = a3 * b4;
        let m_3_5 = a3 * b5;
        let m_3_6 = a3 * b6;
        let m_3_7 = a3 * b7;
        let m_4_0 = a4 * b0;
        let m_4_1 = a4 * b1;
        let m_4_2 = a4 * b2;
        let m_4_3 = a4 * b3;
        let m_4_4 = a4 * b4;
        let m_4_5 = a4 * b5;
        let m_4_6 = a4 * b6;
        let m_4_7 = a4 * b7;
        let m_5_0 = a5 * b0;
        let m_5_1 = a5 * b1;
        let m_5_2 = a5 * b2;
        let m_5_3 = a5 * b3;
        let m_5_4 = a5 * b4;
        let m_5_5 = a5 * b5;
        let m_5_6 = a5 * b6;
        let m_5_7 = a5 * b7;
        let m_6_0 = a6 * b0;
        let m_6_1 = a6 * b1;
        let m_6_2 = a6 * b2;
        let m_6_3 = a6 * b3;
        let m_6_4 = a6 * b4;
        let m_6_5 = a6 * b5;
        let m_6_6 = a6 * b6;
        let m_6_7 = a6 * b7;
        let m_7_0 = a7 * b0;
        let m_7_1 = a7 * b1;
        let m_7_2 = a7 * b2;
        let m_7_3 = a7 * b3;
        let m_7_4 = a7 * b4;
        let m_7_5 = a7 * b5;
        let m_7_6 = a7 * b6;
        let m_7_7 = a7 * b7;

        // Compute the 40-digit combined product using 64-bit operations.
        let d0 = m_0_0 + ((m_0_1 & 0x1fffffff) << 29) +
                 ((m_1_0 & 0x1fffffff) << 29);
        let c0 = d0 >> 58;
        let d1 = (m_0_1 >> 29) + m_0_2 + ((m_0_3 & 0x1fffffff) << 29) +
                 (m_1_0 >> 29) + m_1_1 + ((m_1_2 & 0x1fffffff) << 29) +
                 m_2_0 + ((m_2_1 & 0x1fffffff) << 29) +
                 ((m_3_0 & 0x1fffffff) << 29) + c0;
        let c1 = d1 >> 58;
        let d2 = (m_0_3 >> 29) + m_0_4 + ((m_0_5 & 0x1fffffff) << 29) +
                 (m_1_2 >> 29) + m_1_3 + ((m_1_4 & 0x1fffffff) << 29) +
                 (m_2_1 >> 29) + m_2_2 + ((m_2_3 & 0x1fffffff) << 29) +
                 (m_3_0 >> 29) + m_3_1 + ((m_3_2 & 0x1fffffff) << 29) +
                 m_4_0 + ((m_4_1 & 0x1fffffff) << 29) +
                 ((m_5_0 & 0x1fffffff) << 29) + c1;
        let c2 = d2 >> 58;
        let d3 = (m_0_5 >> 29) + m_0_6 + ((m_0_7 & 0x1fffffff) << 29) +
                 (m_1_4 >> 29) + m_1_5 + ((m_1_6 & 0x1fffffff) << 29) +
                 (m_2_3 >> 29) + m_2_4 + ((m_2_5 & 0x1fffffff) << 29) +
                 (m_3_2 >> 29) + m_3_3 + ((m_3_4 & 0x1fffffff) << 29) +
                 (m_4_1 >> 29) + m_4_2 + ((m_4_3 & 0x1fffffff) << 29) +
                 (m_5_0 >> 29) + m_5_1 + ((m_5_2 & 0x1fffffff) << 29) +
                 m_6_0 + ((m_6_1 & 0x1fffffff) << 29) +
                 ((m_7_0 & 0x1fffffff) << 29) + c2;
        let c3 = d3 >> 58;
        let d4 = (m_0_7 >> 29) +
                 (m_1_6 >> 29) + m_1_7 +
                 (m_2_5 >> 29) + m_2_6 + ((m_2_7 & 0x1fffffff) << 29) +
                 (m_3_4 >> 29) + m_3_5 + ((m_3_6 & 0x1fffffff) << 29) +
                 (m_4_3 >> 29) + m_4_4 + ((m_4_5 & 0x1fffffff) << 29) +
                 (m_5_2 >> 29) + m_5_3 + ((m_5_4 & 0x1fffffff) << 29) +
                 (m_6_1 >> 29) + m_6_2 + ((m_6_3 & 0x1fffffff) << 29) +
                 (m_7_0 >> 29) + m_7_1 + ((m_7_2 & 0x1fffffff) << 29) +
                 c3;
        let c4 = d4 >> 58;
        let d5 = (m_2_7 >> 29) +
                 (m_3_6 >> 29) + m_3_7 +
                 (m_4_5 >> 29) + m_4_6 + ((m_4_7 & 0x1fffffff) << 29) +
                 (m_5_4 >> 29) + m_5_5 + ((m_5_6 & 0x1fffffff) << 29) +
                 (m_6_3 >> 29) + m_6_4 + ((m_6_5 & 0x1fffffff) << 29) +
                 (m_7_2 >> 29) + m_7_3 + ((m_7_4 & 0x1fffffff) << 29) +
                 c4;
        let c5 = d5 >> 58;
        let d6 = (m_4_7 >> 29) +
                 (m_5_6 >> 29) + m_5_7 +
                 (m_6_5 >> 29) + m_6_6 + ((m_6_7 & 0x1fffffff) << 29) +
                 (m_7_4 >> 29) + m_7_5 + ((m_7_6 & 0x1fffffff) << 29) +
                 c5;
        let c6 = d6 >> 58;
        let d7 = (m_6_7 >> 29) +
                 (m_7_6 >> 29) + m_7_7 +
                 c6;

        // Modular reduction by a pseudo-mersenne prime of the form 2^n - c.

        // These are the n low-order
        let l0_0 = d0 & 0x03ffffffffffffff;
        let l1_0 = d1 & 0x03ffffffffffffff;
        let l2_0 = d2 & 0x03ffffffffffffff;
        let l3_0 = d3 & 0x0000ffffffffffff;

        // Shift the high bits down into another n-bit number.
        let h0_0 = ((d3 & 0x03ffffffffffffff) >> 48) |
                   ((d4 & 0x000000000007ffff) << 10);
        let h1_0 = (d4 & 0x0000fffffff80000) >> 19;
        let h2_0 = ((d4 & 0x03ff000000000000) >> 48) |
                   ((d5 & 0x000000000007ffff) << 10);
        let h3_0 = (d5 & 0x0000fffffff80000) >> 19;
        let h4_0 = ((d5 & 0x03ff000000000000) >> 48) |
                   ((d6 & 0x000000000007ffff) << 10);
        let h5_0 = (d6 & 0x0000fffffff80000) >> 19;
        let h6_0 = ((d6 & 0x03ff000000000000) >> 48) |
                   ((d7 & 0x000000000007ffff) << 10);
        let h7_0 = d7 >> 19;

        // Multiply by C
        let hc0_0 = h0_0 * C_VAL;
        let hc1_0 = h1_0 * C_VAL;
        let hc2_0 = h2_0 * C_VAL;
        let hc3_0 = h3_0 * C_VAL;
        let hc4_0 = h4_0 * C_VAL;
        let hc5_0 = h5_0 * C_VAL;
        let hc6_0 = h6_0 * C_VAL;
        let hc7_0 = h7_0 * C_VAL;

        let hm0_0 = hc0_0 + ((hc1_0 & 0x1fffffff) << 29);
        let hmk0_0 = hm0_0 >> 58;
        let hm1_0 = (hc1_0 >> 29) + hc2_0 +
                    ((hc3_0 & 0x1fffffff) << 29) + hmk0_0;
        let hmk1_0 = hm1_0 >> 58;
        let hm2_0 = (hc3_0 >> 29) + hc4_0 +
                    ((hc5_0 & 0x1fffffff) << 29) + hmk1_0;
        let hmk2_0 = hm2_0 >> 58;
        let hm3_0 = (hc5_0 >> 29) + hc6_0 +
                    ((hc7_0 & 0x1fffffff) << 29) + hmk2_0;

        // Add h and l.
        // repaired
        let kin_0 = (hm3_0 >> 48) + ((hc7_0 >> 29) << 10);
        let s0_0 = l0_0 + (hm0_0 & 0x03ffffffffffffff) + (kin_0 * C_VAL);
        let k0_0 = s0_0 >> 58;
        let s1_0 = l1_0 + (hm1_0 & 0x03ffffffffffffff) + k0_0;
        let k1_0 = s1_0 >> 58;
        let s2_0 = l2_0 + (hm2_0 & 0x03ffffffffffffff) + k1_0;
        let k2_0 = s2_0 >> 58;
        let s3_0 = l3_0 + (hm3_0 & 0x0000ffffffffffff) + k2_0;

        self.0[0] = s0_0 & 0x03ffffffffffffff;
        self.0[1] = s1_0 & 0x03ffffffffffffff;
        self.0[2] = s2_0 & 0x03ffffffffffffff;
        self.0[3] = s3_0;
"

/-- `mul_assign`, /repo/src/field/mod_e251_9.rs:475-686, repaired. -/
def mul_e251_9 : Prog := rust_prog% 9 4 27 "
        let a0 = self.0[0] & 0x0fffffff;
        let a1 = self.0[0] >> 28;
        let a2 = self.0[1] & 0x0fffffff;
        let a3 = self.0[1] >> 28;
        let a4 = self.0[2] & 0x0fffffff;
        let a5 = self.0[2] >> 28;
        let a6 = self.0[3] & 0x0fffffff;
        let a7 = self.0[3] >> 28;
        let a8 = self.0[4];

        let b0 = rhs.0[0] & 0x0fffffff;
        let b1 = rhs.0[0] >> 28;
        let b2 = rhs.0[1] & 0x0fffffff;
        let b3 = rhs.0[1] >> 28;
        let b4 = rhs.0[2] & 0x0fffffff;
        let b5 = rhs.0[2] >> 28;
        let b6 = rhs.0[3] & 0x0fffffff;
        let b7 = rhs.0[3] >> 28;
        let b8 = rhs.0[4];

        // Combined multiples
        let m_0_0 = a0 * b0;
        let m_0_1 = a0 * b1;
        let m_0_2 = a0 * b2;
        let m_0_3 = a0 * b3;
        let m_0_4 = a0 * b4;
        let m_0_5 = a0 * b5;
        let m_0_6 = a0 * b6;
        let m_0_7 = a0 * b7;
        let m_0_8 = a0 * b8;
        let m_1_0 = a1 * b0;
        let m_1_1 = a1 * b1;
        let m_1_2 = a1 * b2;
        let m_1_3 = a1 * b3;
        let m_1_4 = a1 * b4;
        let m_1_5 = a1 * b5;
        let m_1_6 = a1 * b6;
        let m_1_7 = a1 * b7;
        let m_1_8 = a1 * b8;
        let m_2_0 = a2 * b0;
        let m_2_1 = a2 * b1;
        let m_2_2 = a2 * b2;
        let m_2_3 = a2 * b3;
        let m_2_4 = a2 * b4;
        let m_2_5 = a2 * b5;
        let m_2_6 = a2 * b6;
        let m_2_7 = a2 * b7;
        let m_2_8 = a2 * b8;
        let m_3_0 = a3 * b0;
        let m_3_1 = a3 * b1;
        let m_3_2 = a3 * b2;
        let m_3_3 = a3 * b3;
        let m_3_4 = a3 * b4;
        let m_3_5 = a3 * b5;
        let m_3_6 = a3 * b6;
        let m_3_7 = a3 * b7;
        let m_3_8 = a3 * b8;
        let m_4_0 = a4 * b0;
        let m_4_1 = a4 * b1;
        let m_4_2 = a4 * b2;
        let m_4_3 = a4 * b3;
        let m_4_4 = a4 * b4;
        let m_4_5 = a4 * b5;
        let m_4_6 = a4 * b6;
        let m_4_7 = a4 * b7;
        let m_4_8 = a4 * b8;
        let m_5_0 = a5 * b0;
        let m_5_1 = a5 * b1;
        let m_5_2 = a5 * b2;
        let m_5_3 = a5 * b3;
        let m_5_4 = a5 * b4;
        let m_5_5 = a5 * b5;
        let m_5_6 = a5 * b6;
        let m_5_7 = a5 * b7;
        let m_5_8 = a5 * b8;
        let m_6_0 = a6 * b0;
        let m_6_1 = a6 * b1;
        let m_6_2 = a6 * b2;
        let m_6_3 = a6 * b3;
        let m_6_4 = a6 * b4;
        let m_6_5 = a6 * b5;
        let m_6_6 = a6 * b6;
        let m_6_7 = a6 * b7;
        let m_6_8 = a6 * b8;
        let m_7_0 = a7 * b0;
        let m_7_1 = a7 * b1;
        let m_7_2 = a7 * b2;
        let m_7_3 = a7 * b3;
        let m_7_4 = a7 * b4;
        let m_7_5 = a7 * b5;
        let m_7_6 = a7 * b6;
        let m_7_7 = a7 * b7;
        let m_7_8 = a7 * b8;
        let m_8_0 = a8 * b0;
        let m_8_1 = a8 * b1;
        let m_8_2 = a8 * b2;
        let m_8_3 = a8 * b3;
        let m_8_4 = a8 * b4;
        let m_8_5 = a8 * b5;
        let m_8_6 = a8 * b6;
        let m_8_7 = a8 * b7;
        let m_8_8 = a8 * b8;

        // Compute the 40-digit combined product using 64-bit operations.
        let d0 = m_0_0 + ((m_0_1 & 0x0fffffff) << 28) +
                 ((m_1_0 & 0x0fffffff) << 28);
        let c0 = d0 >> 56;
        let d1 = (m_0_1 >> 28) + m_0_2 + ((m_0_3 & 0x0fffffff) << 28) +
                 (m_1_0 >> 28) + m_1_1 + ((m_1_2 & 0x0fffffff) << 28) +
                 m_2_0 + ((m_2_1 & 0x0fffffff) << 28) +
                 ((m_3_0 & 0x0fffffff) << 28) + c0;
        let c1 = d1 >> 56;
        let d2 = (m_0_3 >> 28) + m_0_4 + ((m_0_5 & 0x0fffffff) << 28) +
                 (m_1_2 >> 28) + m_1_3 + ((m_1_4 & 0x0fffffff) << 28) +
                 (m_2_1 >> 28) + m_2_2 + ((m_2_3 & 0x0fffffff) << 28) +
                 (m_3_0 >> 28) + m_3_1 + ((m_3_2 & 0x0fffffff) << 28) +
                 m_4_0 + ((m_4_1 & 0x0fffffff) << 28) +
                 ((m_5_0 & 0x0fffffff) << 28) + c1;
        let c2 = d2 >> 56;
        let d3 = (m_0_5 >> 28) + m_0_6 + ((m_0_7 & 0x0fffffff) << 28) +
                 (m_1_4 >> 28) + m_1_5 + ((m_1_6 & 0x0fffffff) << 28) +
                 (m_2_3 >> 28) + m_2_4 + ((m_2_5 & 0x0fffffff) << 28) +
                 (m_3_2 >> 28) + m_3_3 + ((m_3_4 & 0x0fffffff) << 28) +
                 (m_4_1 >> 28) + m_4_2 + ((m_4_3 & 0x0fffffff) << 28) +
                 (m_5_0 >> 28) + m_5_1 + ((m_5_2 & 0x0fffffff) << 28) +
                 m_6_0 + ((m_6_1 & 0x0fffffff) << 28) +
                 ((m_7_0 & 0x0fffffff) << 28) + c2;
        let c3 = d3 >> 56;
        let d4 = (m_0_7 >> 28) + m_0_8 +
                 (m_1_6 >> 28) + m_1_7 + ((m_1_8 & 0x0fffffff) << 28) +
                 (m_2_5 >> 28) + m_2_6 + ((m_2_7 & 0x0fffffff) << 28) +
                 (m_3_4 >> 28) + m_3_5 + ((m_3_6 & 0x0fffffff) << 28) +
                 (m_4_3 >> 28) + m_4_4 + ((m_4_5 & 0x0fffffff) << 28) +
                 (m_5_2 >> 28) + m_5_3 + ((m_5_4 & 0x0fffffff) << 28) +
                 (m_6_1 >> 28) + m_6_2 + ((m_6_3 & 0x0fffffff) << 28) +
                 (m_7_0 >> 28) + m_7_1 + ((m_7_2 & 0x0fffffff) << 28) +
                 m_8_0 + ((m_8_1 & 0x0fffffff) << 28) +
                 c3;
        let c4 = d4 >> 56;
        let d5 = (m_1_8 >> 28) +
                 (m_2_7 >> 28) + m_2_8 +
                 (m_3_6 >> 28) + m_3_7 + ((m_3_8 & 0x0fffffff) << 28) +
                 (m_4_5 >> 28) + m_4_6 + ((m_4_7 & 0x0fffffff) << 28) +
                 (m_5_4 >> 28) + m_5_5 + ((m_5_6 & 0x0fffffff) << 28) +
                 (m_6_3 >> 28) + m_6_4 + ((m_6_5 & 0x0fffffff) << 28) +
                 (m_7_2 >> 28) + m_7_3 + ((m_7_4 & 0x0fffffff) << 28) +
                 (m_8_1 >> 28) + m_8_2 + ((m_8_3 & 0x0fffffff) << 28) +
                 c4;
        let c5 = d5 >> 56;
        let d6 = (m_3_8 >> 28) +
                 (m_4_7 >> 28) + m_4_8 +
                 (m_5_6 >> 28) + m_5_7 + ((m_5_8 & 0x0fffffff) << 28) +
                 (m_6_5 >> 28) + m_6_6 + ((m_6_7 & 0x0fffffff) << 28) +
                 (m_7_4 >> 28) + m_7_5 + ((m_7_6 & 0x0fffffff) << 28) +
                 (m_8_3 >> 28) + m_8_4 + ((m_8_5 & 0x0fffffff) << 28) +
                 c5;
        let c6 = d6 >> 56;
        let d7 = (m_5_8 >> 28) +
                 (m_6_7 >> 28) + m_6_8 +
                 (m_7_6 >> 28) + m_7_7 + ((m_7_8 & 0x0fffffff) << 28) +
                 (m_8_5 >> 28) + m_8_6 + ((m_8_7 & 0x0fffffff) << 28) +
                 c6;
        let c7 = d7 >> 56;
        let d8 = (m_7_8 >> 28) +
                 (m_8_7 >> 28) + m_8_8 + c7;

        // Modular reduction by a pseudo-mersenne prime of the form 2^n - c.

        // These are the n low-order
        let l0_0 = d0 & 0x00ffffffffffffff;
        let l1_0 = d1 & 0x00ffffffffffffff;
        let l2_0 = d2 & 0x00ffffffffffffff;
        let l3_0 = d3 & 0x00ffffffffffffff;
        let l4_0 = d4 & 0x0000000007ffffff;

        // Shift the high bits down into another n-bit number.
        let h0_0 = ((d4 & 0x00ffffffffffffff) >> 27) |
                   ((d5 & 0x0000000007ffffff) << 29);
        let h1_0 = ((d5 & 0x00ffffffffffffff) >> 27) |
                   ((d6 & 0x0000000007ffffff) << 29);
        let h2_0 = ((d6 & 0x00ffffffffffffff) >> 27) |
                   ((d7 & 0x0000000007ffffff) << 29);
        let h3_0 = ((d7 & 0x00ffffffffffffff) >> 27) |
                   ((d8 & 0x0000000007ffffff) << 29);
        // repaired
        let h4_0 = d8 >> 27;

        // Multiply by C
        let hc0_0 = h0_0 * C_VAL;
        let hc1_0 = h1_0 * C_VAL;
        let hc2_0 = h2_0 * C_VAL;
        let hc3_0 = h3_0 * C_VAL;
        let hc4_0 = h4_0 * C_VAL;

        // Add h and l.
        let kin_0 = hc4_0 >> 27;
        let s0_0 = l0_0 + hc0_0 + (kin_0 * C_VAL);
        let k0_0 = s0_0 >> 56;
        let s1_0 = l1_0 + hc1_0 + k0_0;
        let k1_0 = s1_0 >> 56;
        let s2_0 = l2_0 + hc2_0 + k1_0;
        let k2_0 = s2_0 >> 56;
        let s3_0 = l3_0 + hc3_0 + k2_0;
        let k3_0 = s3_0 >> 56;
        let s4_0 = l4_0 + (hc4_0 & 0x0000000007ffffff) + k3_0;

        self.0[0] = s0_0 & 0x00ffffffffffffff;
        self.0[1] = s1_0 & 0x00ffffffffffffff;
        self.0[2] = s2_0 & 0x00ffffffffffffff;
        self.0[3] = s3_0 & 0x00ffffffffffffff;
        self.0[4] = s4_0;
"

/-- The repaired limb functions; the rest of the field file is unchanged. -/
def code : Fld → FieldCode
  | .e221_3 => { Fields.E221_3.code with subP := sub_e221_3 }
  | .e222_117 => { Fields.E222_117.code with subP := sub_e222_117, mulP := mul_e222_117 }
  | .e251_9 => { Fields.E251_9.code with subP := sub_e251_9, mulP := mul_e251_9 }
  | .e255_19 => { Fields.E255_19.code with subP := sub_e255_19 }
  | .e382_105 => { Fields.E382_105.code with subP := sub_e382_105 }
  | .e383_187 => { Fields.E383_187.code with subP := sub_e383_187, unpackP := unpack_e383_187 }
  | .e414_17 => { Fields.E414_17.code with subP := sub_e414_17 }
  | .e511_187 => { Fields.E511_187.code with subP := sub_e511_187 }
  | .e521_1 => { Fields.E521_1.code with subP := sub_e521_1 }

section
variable (f : Fld) (pr : Profile)

/-- `SubAssign<&Self>::sub_assign`, repaired. -/
def subAssign (a b : Elem) : Res Elem := (code f).subAssign pr a b

/-- `Pack::unpacked`, with the repaired `unpack`. -/
def unpacked (bytes : List Int) : Res Elem := (code f).unpacked pr bytes

/-- `Neg::neg`, repaired: `&ZERO - &self`. -/
def neg (a : Elem) : Res Elem := subAssign f pr f.code.ZERO a

/-- `MulAssign<&Self>::mul_assign`, repaired. -/
def mulAssign (a b : Elem) : Res Elem := (code f).mulAssign pr a b

/-- `PrimeField::small_mul_assign`, repaired: `*self *= &(&ZERO + rhs);`. -/
def smallMulAssign (a : Elem) (n : Int) : Res Elem := do
  mulAssign f pr a (← f.code.smallAdd pr f.code.ZERO n)

/-- `Normalize::normalize`, repaired: `*self += &MODULUS;`, then as before. -/
def normalize (a : Elem) : Res Elem := do
  let a ← f.code.addAssign pr a f.code.MODULUS
  let plusc ← f.code.smallAdd pr a (asI32 f.code.cval)
  let offset ← smallMulAssign f pr f.code.MODULUS (asI32 (← f.code.carryOut plusc))
  subAssign f pr a offset

/-- `NormalizeEq::normalize_eq`, with the repaired `normalize`. -/
def normalizeEq (a other : Elem) : Res (Elem × Elem × Bool) := do
  let other' ← normalize f pr other
  let a' ← normalize f pr a
  return (a', other', (List.zipWith (fun x y => decide (x = y)) a' other').all id)

/-- `Pack::pack`, with the repaired `normalize`. -/
def pack (a : Elem) (bytes : List Int) : Res (Elem × List Int) := do
  let a' ← normalize f pr a
  return (a', ← f.code.packNormalized pr a' bytes)

/-- `packed`, with the repaired `normalize`. -/
def packed (a : Elem) : Res (Elem × List Int) := pack f pr a (List.replicate f.code.nbytes 0)

/-- `bit`, with the repaired `normalize`. -/
def bit (a : Elem) (idx : Nat) : Res (Elem × Bool) := do
  let a' ← normalize f pr a
  return (a', ← f.code.bitNormalized a' idx)

/-- `LowerHex::fmt` and `UpperHex::fmt`, with the repaired `normalize`. -/
def fmtHex (upper : Bool) (a : Elem) : Res (List Char) := do
  let (_, bytes) ← packed f pr a
  return (bytes.reverse.map (FieldCode.hexByte upper)).flatten

end

/-- The scalar type of a curve with the repaired functions. -/
def scalar (c : Crv) (pr : Profile) : Scalar Elem :=
  { c.scalar pr with
    sub := subAssign c.fld pr
    mul := mulAssign c.fld pr
    smallMul := fun a n => smallMulAssign c.fld pr a n
    normalize := normalize c.fld pr }

section
variable {S : Type} (C : Scalar S)

/-- Body of `Point::triple`, repaired. -/
def tripleP : PProg := rust_point% "
        let yy = self.y.squared();
        let xx = self.x.squared();
        let ap = yy + xx;
        let b = (self.z.squared().small_mul(2) - ap).small_mul(2);
        let xb = xx * b;
        let yb = yy * b;
        let aa = ap * (yy - xx);
        let f = aa - yb;
        // repaired
        let g = aa + xb;
        let xe = self.x * (yb + aa);
        let yh = self.y * (xb - aa);
        let zf = self.z * f;
        let zg = self.z * g;
        let x3 = xe * zf;
        let y3 = yh * zg;
        let z3 = zf * zg;
        let t3 = xe * yh;

        self.x = x3;
        self.y = y3;
        self.z = z3;
        self.t = t3;
"

/-- `Point::triple`, repaired. -/
def triple (p : EdwardsExtended S) : Res (EdwardsExtended S) := EdwardsExtended.call C tripleP p p

/-- `Point::zero`, repaired. -/
def zero : EdwardsExtended S := ⟨C.zero, C.one, C.one, C.zero⟩

/-- `Point::init`, repaired. -/
def init (x y : S) : Res (EdwardsExtended S) := do
  return ⟨x, y, C.one, ← C.mul x y⟩

/-- Body of the loop of `scalar_mult_normalized`, repaired. -/
def ladder : List LStmt := rust_ladder% "
            let idx = nbits - 1 - i;
            let bit = rhs.bit_normalized(idx);
            // Note that we fill everything with 0s or 1s.  This
            // allows us to skip normalization.
            // repaired
            let tmask = C::Scalar::filled(!bit);
            let fmask = C::Scalar::filled(bit);
            let mut d0 = r0;
            let mut d1 = r1;

            // r0 = r1 = r0 + r1
            r0 += r1;
            r1 = r0;

            // d0 = bit ? r0 : r1
            d0.normalized_bitand(&tmask);
            d1.normalized_bitand(&fmask);
            d0.normalized_bitor(&d1);

            // d0 *= 2
            d0.double();

            // d1 = d0
            d1 = d0;

            // r0 = bit ? d0 : r0
            r0.normalized_bitand(&fmask);
            d0.normalized_bitand(&tmask);
            r0.normalized_bitor(&d0);

            // r1 = bit ? r1 : d1
            r1.normalized_bitand(&tmask);
            d1.normalized_bitand(&fmask);
            r1.normalized_bitor(&d1);
"

/-- `Point::scalar_mult_normalized`, repaired. -/
def scalarMultNormalized (p : EdwardsExtended S) (k : S) : Res (EdwardsExtended S) := do
  let r0 := zero C
  let r1 := p
  let (s, _) ← Ladder.loop C k ladder C.nbits 0
    ⟨r0, r1, r0, r1, 0, false, C.filled false, C.filled false⟩
  return ⟨s.r0.x, s.r0.y, s.r0.z, s.r0.t⟩

/-- `Point::scalar_mult`, with the repaired functions. -/
def scalarMult (p : EdwardsExtended S) (k : S) : Res (EdwardsExtended S × S) := do
  let k' ← C.normalize k
  return (← scalarMultNormalized C p k', k')

end

end Verif.Repaired
