/-
The tables of the generated parser, /repo/sqlparser/parser.go.  This module is written by
tools/yacc.py; every table is one number whose hexadecimal digits, read from left to right in
groups of four, are the entries of the Go table with 2000 added to each.
-/
namespace Sqldef.Yy

/-- A Go array of integers (entries from -2000 to 63535). -/
structure Table where
  bits : Nat
  size : Nat

/-- Entry `i` of a table of `n` entries, still with 2000 added. -/
def entry (bits n i : Nat) : Nat :=
  Nat.land (Nat.shiftRight bits (Nat.mul (nat_lit 16) (Nat.sub n (Nat.succ i)))) (nat_lit 65535)

/-- Indexing a Go array: `none` is the run-time panic "index out of range". -/
def Table.at (t : Table) (i : Int) : Option Int :=
  if 0 ≤ i ∧ i < t.size then some ((entry t.bits t.size i.toNat : Int) - 2000) else none

/-- Models /repo/sqlparser/parser.go 791-2262, `yyAct` (14695 entries). -/
def bitsAct : Nat := nat_lit 0x08e1_0dfc_0dbb_0bfb_0d96_0b9e_0d93_08de_0aa9_0b2d_09c2_0e0d_0c1a_0a13_0d3c_0dbf_0d49_0cb4_0dd6_0a12_07d3_0c54_0ccf_09a0_0ad5_08fe_0cd0_0b3f_0c5f_0cb5_0c1d_08e4_0a54_0b57_0a56_0829_0b5d_08e5_0829_0cb1_0c39_0b56_0b99_0c0b_0ba6_08cb_0b2e_0b06_0b6b_0c33_0b11_0805_0bd7_0b0e_08da_08c5_092c_0c99_0812_0aaf_0c00_0b94_0829_0829_0931_0c51_0b21_08ca_0a66_0931_0b88_0b66_0931_0931_0929_0aef_09cf_09d5_0829_099e_0829_0a58_0a65_0b2a_08e7_0a49_0829_0b7e_09db_091a_0926_08e3_0a2a_0bc5_0918_091f_08d4_0923_0921_08c6_08c7_08c8_08c9_0a2f_09e3_0a30_0c41_0b7b_09f1_0804_08d8_09fb_0e4d_0ce9_0b78_0b10_09fb_0e26_0d4f_0919_09a1_09a2_0cdc_0a21_0cdd_0e46_0d56_0e6f_0e36_0e6b_0826_0e04_0dcf_09f0_09ef_09f9_09fa_09f2_09f3_09f4_09f5_09f6_09f7_09f8_09f1_0c31_091d_09fb_09f9_09fa_09f2_09f3_09f4_09f5_09f6_09f7_09f8_09f1_0922_0ddb_09fb_0c55_0c56_0e62_0b9f_0e2a_0e3f_0e35_0cac_0d2d_0e1b_0d30_0dda_09ad_0e03_09ae_09ab_0c13_0ccb_0ccc_0c12_09b5_0a67_0c14_0a68_0b7a_0cca_09eb_0b4c_09ee_09ca_0c40_0800_07ea_07eb_09fd_09fe_09ff_0a00_0a01_0a02_0a03_0b52_09ec_09ed_09ea_09f0_09ef_09f9_09fa_09f2_09f3_09f4_09f5_09f6_09f7_09f8_09f1_0b4d_0b4e_09fb_0d67_0d66_0c3d_0829_0c3f_0c3e_0acc_0931_0931_0931_0931_0c43_0931_0acd_0b7d_0b89_0db2_0b25_0cfd_0931_09f0_09ef_09f9_09fa_09f2_09f3_09f4_09f5_09f6_09f7_09f8_09f1_0cfc_0d25_09fb_09f2_09f3_09f4_09f5_09f6_09f7_09f8_09f1_0d23_0d7e_09fb_0931_0b7f_08c4_09f4_09f5_09f6_09f7_09f8_09f1_09d8_0b95_09fb_0df7_0dbd_0ab1_0ab2_0e45_0da6_0e47_09bb_0ded_0a0a_0a0b_0a0c_0a0d_0a0e_0a0f_0a10_09a1_09a2_0d07_0d08_0e60_0ab0_0c35_0c36_0c37_09c6_09c7_09d7_09d2_09d6_0c3a_0c38_08fb_08fc_0824_0820_0821_0822_09fc_0e6a_09b7_0dfd_0c83_09fc_0b2b_09e8_0d0c_0dfe_0b67_0829_0d86_0d2c_09ce_0d51_0dd0_0d50_0829_0829_0829_0c2b_0c2a_0d0d_0931_0b68_0d4c_0d5b_0cd6_0c1f_0931_0d29_09ce_09bd_0929_09bf_09fc_0d5a_0e55_0d15_0dc6_0a14_0a06_0d5d_0b40_0b42_0cd7_09ce_09b0_09fc_0a1f_09f0_09ef_09f9_09fa_09f2_09f3_09f4_09f5_09f6_09f7_09f8_09f1_09bc_09be_09fb_0d5c_09a6_081e_09f0_09ef_09f9_09fa_09f2_09f3_09f4_09f5_09f6_09f7_09f8_09f1_0cdf_0e3e_09fb_09f0_09ef_09f9_09fa_09f2_09f3_09f4_09f5_09f6_09f7_09f8_09f1_0ddb_0d6f_09fb_0e02_09a3_0b96_091d_0b89_0ab1_0ab2_0a44_0b82_0ab7_09fc_0c30_081d_0c0a_081e_0c09_0a5c_0c24_09ac_0a5d_0b41_0c08_0a63_0a23_0a24_0a25_0a26_0a27_0a28_0a29_09f0_09ef_09f9_09fa_09f2_09f3_09f4_09f5_09f6_09f7_09f8_09f1_0aa7_08af_09fb_09fc_08fd_0801_0c22_081f_0823_0c84_0829_0d4a_0d4b_0d4d_09fc_0c80_0e66_0829_0dd4_0829_0931_0d39_0829_0c3c_0c40_0829_09fc_0a08_0a09_0829_0c8c_0931_0931_0931_0931_0931_0931_0931_0931_0be7_0b67_0bd1_0ad3_09e7_09ba_0931_0931_09b6_0b54_0b53_0829_0ad0_0bc0_0809_09e0_0b68_0c3d_0cf7_0c3f_0c3e_09e2_0de6_0c88_0b22_0de5_0931_09e1_09e0_092b_0829_09e2_0b67_0de4_09a4_0de3_0931_09a8_09a9_080b_080c_080d_080e_080f_09e2_0de2_0ac0_0b68_0aee_0aec_0de1_0af7_0af8_0af9_0afa_0afb_0afc_0afd_0afe_0aff_0b00_0b01_0b02_0b03_0b04_0b05_0aa8_0af0_0ad8_0cf8_0a78_0de0_0a74_0ab3_0c81_0ab4_0c7f_0dde_0ab8_0d04_0931_0abb_0af6_0abe_0bfe_0a69_0ae2_0ae3_0cae_0c82_0da5_09fc_0bc1_0c1c_0aac_0aed_0af4_0af5_0af3_0c87_09a5_0c27_081b_09af_0b15_0b22_0ace_0bee_0be4_09fc_09ef_09f9_09fa_09f2_09f3_09f4_09f5_09f6_09f7_09f8_09f1_0ada_0e0e_09fb_09fc_0ae1_0af1_0b1a_0b1d_09dd_081c_0829_0aeb_0b23_0829_0829_0829_0829_0829_0a14_0ae9_0e0f_0b18_0b19_09ce_0da8_0829_0e58_0c26_0829_0816_0819_0b09_0829_0da4_0e57_09e1_09e0_0829_0829_09e1_09e0_0931_0b0b_0b0c_0817_081a_0c1c_0b15_09fc_0b2f_09a7_0929_09e2_09aa_0931_0c1c_09e2_0e44_0e43_0b27_0b1f_0818_0814_0e42_0b58_09b2_09b3_09b4_0c1b_0b47_0917_0e10_092b_092b_092b_092b_0ddf_092b_09e1_09e0_0b16_0b17_0802_0e0c_092b_0cb0_0b1e_0ae5_0ae7_0ae8_0c1c_0db0_0af2_0ae6_0d69_09e2_0d68_091d_091d_091d_091d_091d_0b51_0b31_0b32_0b2c_0b34_0ce5_0e40_0b3c_0931_09e5_091d_0b44_0931_0c5a_0931_0829_0b45_0829_0b26_091d_0b28_0b29_0829_0b4a_0829_0ad6_0ad7_0829_0931_0b49_0b30_0b48_0b5b_0b33_0bce_0bcf_0bd0_0d60_0c58_09cd_0c44_0c44_0b8a_0b8b_0b8c_0b8d_099f_0b9b_0e41_09d9_0b80_0b81_0b83_0b84_0b85_0d85_0b86_0b87_0b07_0be3_0b08_0be2_0aec_0b97_0b98_0d2a_0d5f_0d64_0d17_0ddc_0c44_09e1_09e0_0b90_0b91_0b92_0c52_0b93_09e1_09e0_0815_0c2d_0cda_092b_0cd9_0cd8_0c6c_0c25_09e2_0a6b_0c15_0c9a_0bd4_0bd5_0bd6_09e2_07e5_0ad2_0df5_0e73_0d8d_0e68_0d46_0e61_0bc3_0bc4_09fc_09d6_0aed_0af0_0ba5_0b67_0baa_0d46_0e4c_09ce_0b62_0bbb_0b61_0bbc_0b63_0b64_0bbd_0ba1_0c9c_0b65_0b68_0d46_0e4b_0df0_0bc6_0b0a_0ad1_0bc7_0d46_0e3d_0def_09f0_09ef_09f9_09fa_09f2_09f3_09f4_09f5_09f6_09f7_09f8_09f1_09e1_09e0_09fb_08cf_0df5_0e3c_0db7_0c6d_0c69_0bf8_0bd3_0c6e_0c6b_0c6a_0abd_0931_081a_09e2_0829_0af1_0c0d_0bde_0c0f_0e39_0e38_0e31_09ce_0c6f_0d46_0e2e_0bcd_0c9e_0abc_0c68_0931_0ca3_0bef_0c9d_0d8d_0dfa_0d46_0df1_0c9b_0aad_0b58_0931_0bed_0aab_0ca1_09b8_0c0e_0d8d_0dae_0d8d_09ce_0db6_0931_0d8d_0d8e_0c05_09b1_0c9f_0ca0_0d46_0d45_0829_099f_0c17_0cc7_09ce_0db1_092b_0d38_09ce_0d61_0c2c_0d00_0cff_0bdc_0ca2_0ca4_0a60_092b_092b_092b_092b_092b_092b_092b_092b_0d58_0c10_0cfa_0cfb_0beb_0cb2_092b_092b_0bfc_0c3b_0cfa_0cf9_091d_0bdd_09ce_0a46_09ce_0931_0b13_09ce_0a70_0a6f_0cf0_0df6_0c57_0df5_0adc_0c60_0c20_0c21_0c23_0a61_0bfd_0a5f_0c5d_0bfc_09e5_07e7_0806_092b_0b13_0a45_0a4b_0a4e_0a4f_0a50_0a4c_0931_0a4d_0a51_0829_0829_0c01_0c02_0d34_0802_0c45_0c46_0829_0c48_0c49_0c4a_0a46_0d88_0c8f_0a46_0c53_0931_0d57_0c59_0bfd_0d03_0be9_0a46_0be6_0c47_0bdd_0c91_0d6b_0d6a_0b0d_0c95_0c96_0802_0c65_0cfe_0c16_0c64_0c66_07e7_0b1b_0b1b_0b4b_0bdd_0ca7_0ca8_0b1b_0caa_0cab_0ca9_08f4_08f3_08f6_08f7_08f8_08f9_0bdd_0931_0931_08f5_08fa_0bfc_0bf6_0cb3_0be8_0bf7_0be5_07e7_09fc_0e1c_0a62_0c92_0c93_0b46_0ad4_0a5f_0cb8_08d1_0e6c_0c98_0cb6_0cc9_0ca5_0b1b_0e4a_0802_0931_0e33_0931_0931_0aaa_0b2f_0df3_0ca6_0cad_0aed_0b58_0b2f_0b58_0df2_0caf_0cbb_0dea_0c8d_0de9_0dc3_0cbd_0daf_0d78_0c94_0cbc_0b7f_092b_0802_0b9a_0cbe_0cbf_0cef_0cee_0cc0_0cec_0cce_0cc2_0802_0cdb_092b_0ce2_0ccd_0cc8_09f0_09ef_09f9_09fa_09f2_09f3_09f4_09f5_09f6_09f7_09f8_09f1_0cc1_0b95_09fb_0c32_0ce0_0c4b_0c3b_0c4d_0c4e_0c4f_0c50_0cde_0c5b_0c5c_0829_0931_0c19_0b8f_0e20_0c01_0c02_0c07_0829_0b8e_0ce6_0811_0dd7_0931_0d6c_0cb2_0c63_0e22_0c04_0aba_0aae_09cb_0931_08ff_07ff_0ae0_0b9c_0c06_0b39_0b36_092b_0b35_092b_0b3a_0829_0b3b_0e1d_0a4f_0a50_0e52_0931_0a4b_0a4e_0a4f_0a50_0a4c_092b_0a4d_0a51_0931_0cf3_0b37_0829_0d0a_0d19_0e34_0b38_0ceb_0ced_0c91_08d5_08d6_0c8b_0bc2_0d1c_09dc_0e50_0d0e_0bcc_0bcb_092b_07ff_09d0_0d79_0c4c_0a6e_0d10_0d16_09da_08d0_09b9_0ba3_0ce4_09d1_0d1a_091e_0d32_0ad6_0ad7_0ab9_0d13_0d76_0ce3_0c62_0b9d_0d01_0a53_08d2_08d3_0d18_09dc_0d75_0931_0d09_0931_0931_0931_0829_0931_0d21_0d06_0cd5_08cc_0bca_0931_0e48_0ad9_0dc9_0d3f_0d40_0d41_0bc9_08cd_0806_0b58_0dc8_0d7c_0d33_0bfd_0d12_0ba7_0ba8_0ba9_0cd4_0cd3_0931_091d_0d4e_09de_0d31_0de8_0d42_0d3b_0de7_0d53_0dd1_0a14_0c17_0c29_0d55_0d1e_0d1f_0d52_0d20_0d44_0acf_0808_0d22_080a_0d24_0c67_0e1e_0e1f_0e21_0e23_0e24_0dc1_07d7_0931_0931_0d0b_0c3b_0dc2_07d6_0b12_0b14_0931_0a5e_0c60_0b58_0cf1_0cf2_0c0c_0cf4_0cf5_0cf6_0931_0803_0d54_0d59_0b24_0dc0_07d5_07d1_09fc_0d71_0d6d_0d72_0d73_0d74_0dbe_092b_0d6e_0dee_0c2f_0d47_0d48_0dec_0813_0d70_0e29_0df4_0c1e_0d7f_0d80_0ce8_0d81_0d82_0d83_0d05_0c61_0931_0931_0c28_0c70_0ba0_0c5e_0baf_0d63_0dfb_0d65_0e09_0d94_0b5f_0b55_0931_099d_0810_0ddd_0d89_0b3e_0b60_0cb6_0b5e_0b5c_0931_0d87_0a71_0b79_0c42_0da3_09c1_09c1_09c1_09c1_0da7_09c1_0b7c_0d92_0a77_0da2_0da1_0a75_09c1_0a76_0a73_0d7d_0a79_0a72_0dab_08b7_0931_0931_0829_092b_0da9_0931_0db3_0924_0a52_07ff_0a6a_09df_0c7e_0c7d_0931_0bab_0c86_0acb_0bbf_09c9_08b9_0a04_0db8_0bc8_0a05_0c11_092a_0a07_0dc4_0e25_0cb9_09d4_0dc7_092b_0d7b_0931_0bec_0a1e_0b20_08e6_0ae4_08f2_09c0_08ef_08f1_08f0_0dd8_0dd2_0adb_0bf5_09e9_0dd3_08dc_092b_0a11_0cb6_0a15_0a16_0a17_0a18_0a19_0a1a_0a1b_0a1c_0a1d_091c_0a20_0a22_0a22_0a22_0a22_0a22_0a22_0a22_0a22_092b_0a3e_0a3f_0a40_0a41_0a42_0a4a_0a48_0d62_0a47_0c03_0bff_0a55_091b_0931_0b1b_0c8e_0d2f_0cba_0c0c_0dce_0b1b_0dba_0adf_0df8_07e9_0807_08d7_07e3_07e2_07e1_0931_07e4_0e00_0931_07e0_0df9_0e05_0931_07df_07de_0e0a_07ed_07dd_07dc_0deb_07db_092b_07da_092b_0cd1_07d9_0931_0931_0e18_07d8_0e11_0e12_0e13_0e14_0e15_0931_0931_07d4_0931_0b2f_0e16_0e17_08ce_07e6_07d2_07d0_0931_0dff_0a14_0e19_0bda_0e2f_07d0_07d0_0bdb_0e2d_07d0_0e27_0e28_07d0_07d0_0bdf_0be0_0be1_07d0_07d0_07d0_07d0_07d0_0d97_0bea_07d0_07d0_07d0_07d0_0bf0_07d0_07d0_0bf1_0bf2_0bf3_0bf4_0d99_0e3a_0e3b_07d0_07d0_07d0_07d0_0e49_07d0_0d02_07d0_0e2c_0db4_07d0_0db5_07d0_07d0_0e4f_0931_0e4e_07d0_0d0f_0931_07d0_07d0_07d0_07d0_07d0_0e54_07d0_0d11_07d0_07d0_07d0_0e56_07d0_07d0_07d0_07d0_0829_0e51_0931_07d0_07d0_07d0_0e5d_0e5b_09c1_0d14_0e5e_07d0_07d0_0829_07d0_07d0_0e5c_07d0_092b_09c1_09c1_09c1_09c1_09c1_09c1_09c1_09c1_0e69_07d0_0d98_0931_07d0_0e65_09c1_09c1_07d0_0931_0e67_0e70_07d0_0e6d_07d0_07d0_07d0_07d0_0e71_07d0_07d0_07d0_09c3_09c4_09c5_07d0_09c8_07d0_07d0_07d0_07d0_07d0_0e5f_09cc_0d9a_0d9b_0d9c_0d9d_0d9e_0d9f_0da0_07d0_07d0_07d0_0d3d_07d0_0d3d_0d3d_0d3d_07d0_0d43_07d0_07d0_07d0_07d0_07d0_092b_07d0_09f0_09ef_09f9_09fa_09f2_09f3_09f4_09f5_09f6_09f7_09f8_09f1_0bd9_07ff_09fb_07d0_07d0_07d0_07d0_0d3d_07d0_07d0_07d0_0e64_07d0_07d0_07d0_0a15_0b78_07d0_07d0_07d0_09f0_09ef_09f9_09fa_09f2_09f3_09f4_09f5_09f6_09f7_09f8_09f1_07d0_0bb5_09fb_07d0_07d0_0bd8_0b6d_07d0_092b_092b_0c97_07d0_07d0_07d0_0bb4_07d0_0d77_07d0_07d0_07d0_0b74_07d0_0b69_07d0_07d0_07d0_0d7a_07d0_0b6a_07d0_07d0_07d0_091e_091e_091e_091e_091e_07d0_0d97_07d0_07d0_0bb9_07d0_07d0_07d0_07d0_07d0_0a55_07d0_0b43_0bb3_0d99_07d0_07d0_07d0_07d0_091e_0cc6_07d0_0d95_07d0_0d8b_0d8c_07d0_07d0_07d0_07d0_07d0_07d0_07d0_07d0_07d0_07d0_07d0_07d0_0cd1_07d0_07d0_07d0_07d0_09d3_0b70_07d0_0b6c_0b75_0daa_07d0_07d0_07d0_07d0_0b72_0b71_07d0_07d0_07d0_07d0_07d0_07d0_07d0_0bb0_0bad_0bae_07d0_0bac_07d0_07d0_07d0_07d0_07d0_07d0_07d0_0cd1_0db9_07d0_07d0_0827_0dbc_07d0_08c3_0d98_07d0_07d0_07d0_0ce7_07d0_0d3d_07d0_07d0_0c35_0c36_0c37_0bb7_0bba_09c1_07d0_09c1_0c3a_0c38_08fb_08fc_08db_07d0_0827_0827_07d0_07d0_0dd5_07d0_07d0_09c1_07d0_0d9a_0d9b_0d9c_0d9d_0d9e_0d9f_0da0_0827_07d0_0827_07d0_07d0_07d0_07d0_07d0_0827_07d0_07d0_0ab6_07d0_07d0_07d0_07d0_07d0_07d0_09fc_07d0_07d0_07d0_0ac1_0ac2_0ac3_0ac4_0ac5_0ac6_0ac7_0ac8_07d0_07d0_07d0_07d0_0d1b_07d0_0ac9_0aca_0bb2_0b6e_0bd2_0d1d_0cd1_07d0_07d0_0b6f_07d0_07d0_07d0_07d0_09fc_07d0_07d0_0d26_0d27_0d28_0b1b_07d0_0d2b_0e07_0a2b_07d0_0e08_07d0_07d0_07d0_0e0b_07d0_07d0_0bb1_07d0_0d35_0d36_0d37_07d0_0d3a_07d0_07d0_07d0_07d0_0dbc_0cd1_07d0_07d0_07d0_07d0_07d0_07d0_07d0_0cd1_0cd1_07d0_0e2b_0a2d_07d0_0b76_07d0_0b77_07d0_0c34_0e32_07d0_0bf9_0bfa_0c35_0c36_0c37_07d0_0bb6_07d0_0b73_07d0_0c3a_0c38_08fb_08fc_07d0_07d0_07d0_07d0_0dd9_07d0_0d5e_07d0_0bb8_07d0_07d0_07d0_07d0_07d0_091e_07d0_07d0_07d0_0a32_0a33_0a34_0a35_0a36_0a37_0a38_0a39_0a3a_0a3b_07d0_07d0_0827_07d0_07d0_07d0_0c3c_0c40_07d0_07d0_0cd1_0a2e_07d0_07d0_0e53_07d0_07d0_07d0_07d0_0a3c_0a2c_0c76_07d0_07d0_07d0_07d0_0a31_07d0_07d0_07d0_07d0_07d0_07d0_0d3d_07d0_07d0_07d0_07d0_07d0_0c3d_07d0_0c3f_0c3e_07d0_07d0_07d0_07d0_0d84_07d0_07d0_08b5_07d0_07d0_07d0_07d0_07d0_07d0_07d0_07d0_07d0_07d0_092b_07d0_0d8f_0d90_0d91_07d0_0dbc_07d0_07d0_07d0_07d0_07d0_07ff_08bf_07d0_07d0_07d0_07d0_07d0_07d0_07d0_07d0_07d0_0dad_07d0_0c77_07d0_07d0_07d0_07d0_0c79_0c72_0c73_07d0_0c7a_0c75_0c74_07d0_0a3d_0c7c_0c78_07d0_07d0_07d0_09c1_0827_07d0_07d0_07d0_07d0_0c7b_07d0_0827_0a5a_0827_07d0_0c71_07d0_07d0_07d0_0ba2_07d0_0ba4_07d0_08b0_07d0_0dca_0dcb_0dcc_0dcd_08b2_07d0_07d0_07d0_07d0_07d0_0bbe_08b8_08b4_0c3c_0c40_07d0_07d0_07d0_07d0_07d0_07d0_07d0_07d0_07d0_07d0_07d0_07d0_07d0_07d0_07d0_07d0_07d0_07d0_07d0_07d0_07d0_0cb7_07d0_07ff_07d0_07d0_08b6_07d0_07d0_08ba_07d0_0c3d_07d0_0c3f_0c3e_07d0_07d0_07d0_0cc3_0cc4_0cc5_07d0_07d0_07d0_07d0_07d0_07d0_07d0_07d0_07d0_07d0_07d0_07d0_07d0_07d0_07d0_07d0_07d0_07d0_07d0_07d0_07d0_07d0_07d0_0e01_07d0_07d0_07d0_07d0_0e06_07d0_07d0_07d0_07d0_0ce1_07e7_07e8_0800_07ea_07eb_07d0_07d0_07d0_07d0_07d0_07d0_07d0_08b1_07d0_07d0_0cea_07d0_07d0_0e1a_07fa_07d0_07d0_07d0_07ec_07d0_07d0_07d0_07d0_07d0_0827_07d0_07d0_07d0_07d0_0e30_07d0_0827_07d0_0827_07d0_07d0_0827_07f5_07d0_0827_07d0_0802_07d0_0abf_07d0_08b3_07d0_08bb_08bc_08bd_08be_08c2_07d0_07d0_07d0_07d0_08c1_08c0_07d0_07d0_07d0_07d0_07d0_07d0_0827_07d0_07d0_07d0_07d0_07d0_07d0_07d0_07d0_07d0_07d0_07d0_07d0_07d0_07d0_07d0_07d0_07d0_07d0_0827_07d0_07d0_07d0_07d0_07d0_07d0_07d0_07d0_0abf_091e_07d0_07d0_07d0_07d0_07d0_07d0_07d0_07ee_07ef_07f1_07f0_07f3_07d0_07d0_07d0_07d0_07d0_07d0_07d0_07d0_07d0_07d0_07d0_0e63_07d0_07d0_07d0_07d0_0d2e_07d0_07d0_07f4_07fb_07fc_07d0_07d0_07fd_07fe_07f2_07d0_08db_07d0_07d0_07d0_07d0_08db_08db_07d0_07d0_0b1c_0b1c_08db_07d0_0e74_0e75_0b1c_07d0_07d0_07d0_07d0_07d0_07d0_07d0_07d0_07d0_07d0_07d0_07d0_07d0_07d0_07f6_07f7_07d0_07f8_07f9_07d0_07d0_07d0_07d0_0c85_07d0_07d0_07d0_07d0_07d0_08db_08db_08db_08db_07d0_0827_07d0_0b1c_0827_0827_0827_0827_0827_07d0_07d0_07d0_07d0_07d0_07d0_07d0_0b3d_07d0_07d0_0827_07d0_07d0_07d0_0a5a_07d0_07d0_07d0_07d0_0827_0827_07d0_07d0_07d0_07d0_07d0_07d0_07d0_07d0_07d0_07d0_07d0_07d0_07d0_07d0_07d0_07d0_07d0_07d0_07d0_07d0_07d0_07d0_07d0_07d0_07d0_07d0_07d0_07d0_07d0_07d0_07d0_07d0_07d0_07d0_07d0_07d0_07d0_07d0_07d0_07d0_07d0_07d0_07d0_07d0_07d0_0cb7_07d0_07d0_0d8a_07d0_07d0_07d0_07d0_07d0_07d0_0801_07d0_07d0_07d0_07d0_07d0_07d0_07d0_07d0_07d0_07d0_07d0_07d0_07d0_07d0_07d0_07d0_07d0_07d0_07d0_07d0_0dac_07d0_0827_07d0_0827_07d0_07d0_07d0_07d0_0827_07d0_0827_07d0_07d0_0827_07d0_07d0_07d0_07d0_07d0_07d0_07d0_07d0_07d0_07d0_07d0_07d0_07d0_07d0_07d0_07d0_07d0_07d0_07d0_07d0_07d0_07d0_0a8f_0dc5_0abf_07d0_07d0_07d0_07d0_07d0_07d0_07d0_07d0_07d0_07d0_07d0_08db_07d0_0cb7_07d0_07ff_07d0_07d0_07d0_07d0_07d0_07d0_07d0_07d0_07d0_07d0_07d0_07d0_07d0_07d0_07d0_07d0_07d0_07d0_07d0_07d0_07d0_07d0_07d0_07d0_07d0_07d0_07d0_07d0_07d0_07d0_07d0_07d0_07d0_07d0_07d0_07d0_07d0_07d0_07d0_07d0_07d0_07d0_07d0_08db_07d0_07d0_07d0_07d0_07d0_07d0_07d0_07d0_07d0_07d0_07d0_07d0_07d0_07d0_0a80_08db_07d0_07d0_07d0_07d0_07d0_07d0_07d0_07d0_07d0_07d0_07d0_07d0_07d0_07d0_07d0_07d0_07d0_07d0_07d0_07d0_07d0_07d0_07d0_07d0_07d0_07d0_07d0_07d0_07d0_07d0_07d0_0a90_07d0_07d0_07d0_07d0_07d0_07d0_0827_07d0_07d0_07d0_07d0_07d0_07d0_07d0_07d0_07d0_07d0_07d0_07d0_07d0_07d0_07d0_07d0_07d0_07d0_07d0_07d0_07d0_07d0_07d0_07d0_07d0_07d0_0e37_07d0_07d0_07d0_07d0_07d0_07d0_0a32_0a33_0a34_0a35_0a36_0a37_0a38_0a39_0a3a_0a3b_07d0_0aa0_0aa1_0c2e_0aa2_0aa3_0aa4_0aa6_0aa5_0a91_0a92_0a93_0a97_0a95_0a94_0a96_0a7a_0a7c_07d0_0a3c_0a7b_0a81_0a7d_0a7e_0a7f_0a8d_0a82_0a83_0a84_0a85_0a86_0a87_0a88_0a89_0a8a_0a8b_0a8c_0a8e_0a98_0a99_0a9a_0a9b_0a9c_0a9d_0a9e_0a9f_07d0_07d0_07d0_07d0_07d0_07d0_07d0_07d0_07d0_07d0_07d0_07d0_07d0_07d0_07d0_07d0_07d0_07d0_07d0_07d0_07d0_07d0_07d0_07d0_07d0_07d0_07d0_07d0_07d0_07d0_07d0_07d0_0c89_0c8a_07d0_0e6e_07d0_07d0_07d0_07d0_0827_07d0_07d0_07d0_07d0_07d0_07d0_07d0_07d0_07d0_08db_07d0_07d0_0a3d_07d0_07d0_07d0_07d0_07d0_07d0_07d0_08db_07d0_07d0_07d0_07d0_07d0_07d0_07d0_07d0_07d0_0abf_07d0_07d0_07d0_07d0_07d0_07d0_07d0_07d0_07d0_07d0_07d0_07d0_07d0_07d0_0b1c_07d0_07d0_07d0_07d0_07d0_0b1c_07d0_07d0_07d0_07d0_07d0_07d0_07d0_07d0_07d0_07d0_07d0_07d0_07d0_07d0_07d0_07d0_07d0_07d0_07d0_07d0_07d0_07d0_07d0_07d0_07d0_07d0_07d0_07d0_07d0_07d0_07d0_07d0_07d0_07d0_07d0_07d0_07d0_07d0_07d0_07d0_07d0_07d0_07d0_07d0_07d0_07d0_07d0_07d0_07d0_07d0_07d0_07d0_07d0_07d0_07d0_07d0_07d0_07d0_07d0_07d0_07d0_07d0_07d0_07d0_07d0_07d0_07d0_07d0_07d0_07d0_07d0_07d0_07d0_07d0_07d0_07d0_07d0_07d0_07d0_07d0_07d0_07d0_07d0_07d0_07d0_07d0_07d0_07d0_07d0_07d0_07d0_07d0_07d0_07d0_0827_07d0_07d0_07d0_07d0_07d0_07d0_07d0_0827_07d0_07d0_07d0_07d0_07d0_07d0_07d0_07d0_07d0_07d0_07d0_07d0_07d0_07d0_07d0_07d0_07d0_07d0_07d0_07d0_07d0_07d0_07d0_07d0_07d0_0827_07d0_07d0_07d0_07d0_07d0_07d0_07d0_07d0_07d0_07d0_07d0_07d0_07d0_07d0_07d0_07d0_07d0_0827_07d0_07d0_07d0_07d0_07d0_0991_0987_07d0_0968_0993_094d_095d_099b_095f_0960_097e_093d_0970_086a_095a_082c_0950_0936_0957_0937_094e_096a_0844_094c_0989_0973_0852_0999_0855_0978_07d0_0880_085e_07d0_07d0_096c_098b_096e_0984_0967_097f_0944_0977_0994_095b_097b_0995_07d0_07d0_0a5a_0930_07d0_0b59_0b5a_07d0_07d0_07d0_07d0_07d0_0839_07d0_097a_0990_0959_099c_097d_0935_0979_07d0_093b_093e_099a_098e_0954_0955_0c18_07d0_07d0_07d0_07d0_07d0_07d0_096b_096f_0981_0964_07d0_07d0_07d0_07d0_07d0_07d0_07d0_07d0_0951_07d0_0976_07d0_07d0_07d0_0941_093c_07d0_0969_07d0_07d0_07d0_0943_07d0_0952_0982_07d0_0932_0986_098c_0966_089b_098f_0963_0962_0871_07d0_083c_07d0_0886_0848_095c_0853_0980_0992_096d_098a_094f_0958_083e_0956_0878_086b_0892_0975_086c_0876_0856_088a_0872_0891_089c_089d_0888_089a_087b_0834_0865_082a_0870_0877_07d0_083d_07d0_08a8_08a9_08aa_08ab_08ac_08ad_08ae_093a_0933_0953_0985_082d_0887_0890_083a_087c_0830_088e_0883_0885_085c_084e_084f_087e_082e_082f_07d0_0875_0843_086f_0847_0842_0868_0884_085f_088b_088c_083f_08a5_0841_0840_0882_0835_0898_0899_0832_0836_0897_0864_0869_0867_0896_0889_088f_085d_085a_0827_0831_088d_085b_0859_0851_07d0_0845_0849_086d_0858_086e_084a_0861_0860_0862_07d0_0866_084b_07d0_07d0_0938_07d0_0881_0894_08a6_08a7_0939_094b_098d_089e_089f_08a0_08a1_07d0_07d0_07d0_0863_0837_084c_087d_0850_0857_0874_08a4_097c_0879_083b_0893_087f_0947_094a_0945_0946_0971_0972_0996_0997_0998_0983_0942_07d0_0948_0949_07d0_0988_084d_0974_082b_0833_0854_08a2_08a3_07d0_0873_0846_0895_095e_0934_0961_07d0_07d0_07d0_07d0_07d0_07d0_07d0_093f_0940_087a_0965_07d0_0838_07d0_07d0_07d0_07d0_07d0_07d0_07d0_07d0_0b1c_07d0_07d0_07d0_07d0_07d0_07d0_07d0_07d0_07d0_07d0_0991_0987_07d0_0968_0993_094d_095d_099b_095f_0960_097e_093d_0970_086a_095a_082c_0950_0936_0957_0937_094e_096a_0844_094c_0989_0973_0852_0999_0855_0978_07d0_0880_085e_07d0_07d0_096c_098b_096e_0984_0967_097f_0944_0977_0994_095b_097b_0995_07d0_07d0_07d0_0930_07d0_0b59_0b5a_07d0_07d0_07d0_07d0_07d0_0839_07d0_097a_0990_0959_099c_097d_0935_0979_07d0_093b_093e_099a_098e_0954_0955_07d0_07d0_07d0_07d0_07d0_07d0_07d0_096b_096f_0981_0964_07d0_07d0_07d0_07d0_07d0_07d0_07d0_07d0_0951_07d0_0976_07d0_07d0_07d0_0941_093c_07d0_0969_07d0_07d0_07d0_0943_0e5a_0952_0982_07d0_0932_0986_098c_0966_089b_098f_0963_0962_0871_0827_083c_07d0_0886_0848_095c_0853_0980_0992_096d_098a_094f_0958_083e_0956_0878_086b_0892_0975_086c_0876_0856_088a_0872_0891_089c_089d_0888_089a_087b_0834_0865_082a_0870_0877_07d0_083d_07d0_08a8_08a9_08aa_08ab_08ac_08ad_08ae_093a_0933_0953_0985_082d_0887_0890_083a_087c_0830_088e_0883_0885_085c_084e_084f_087e_082e_082f_07d0_0875_0843_086f_0847_0842_0868_0884_085f_088b_088c_083f_08a5_0841_0840_0882_0835_0898_0899_0832_0836_0897_0864_0869_0867_0896_0889_088f_085d_085a_07d0_0831_088d_085b_0859_0851_07d0_0845_0849_086d_0858_086e_084a_0861_0860_0862_07d0_0866_084b_07d0_07d0_0938_07d0_0881_0894_08a6_08a7_0939_094b_098d_089e_089f_08a0_08a1_07d0_07d0_07d0_0863_0837_084c_087d_0850_0857_0874_08a4_097c_0879_083b_0893_087f_0947_094a_0945_0946_0971_0972_0996_0997_0998_0983_0942_07d0_0948_0949_07d0_0988_084d_0974_082b_0833_0854_08a2_08a3_07d0_0873_0846_0895_095e_0934_0961_07d0_07d0_07d0_07d0_07d0_07d0_07d0_093f_0940_087a_0965_07d0_0838_0991_0987_07d0_0968_0993_094d_095d_099b_095f_0960_097e_093d_0970_086a_095a_082c_0950_0936_0957_0937_094e_096a_0844_094c_0989_0973_0852_0999_0855_0978_07d0_0880_085e_07d0_07d0_096c_098b_096e_0984_0967_097f_0944_0977_0994_095b_097b_0995_07d0_07d0_07d0_0930_07d0_07d0_07d0_07d0_07d0_07d0_07d0_07d0_0839_07d0_097a_0990_0959_099c_097d_0935_0979_07d0_093b_093e_099a_098e_0954_0955_07d0_07d0_07d0_07d0_07d0_07d0_07d0_096b_096f_0981_0964_07d0_07d0_07d0_07d0_07d0_07d0_0c90_07d0_0951_07d0_0976_07d0_07d0_07d0_0941_093c_07d0_0969_07d0_07d0_07d0_0943_07d0_0952_0982_07d0_0932_0986_098c_0966_089b_098f_0963_0962_0871_07d0_083c_07d0_0886_0848_095c_0853_0980_0992_096d_098a_094f_0958_083e_0956_0878_086b_0892_0975_086c_0876_0856_088a_0872_0891_089c_089d_0888_089a_087b_0834_0865_082a_0870_0877_07d0_083d_07d0_08a8_08a9_08aa_08ab_08ac_08ad_08ae_093a_0933_0953_0985_082d_0887_0890_083a_087c_0830_088e_0883_0885_085c_084e_084f_087e_082e_082f_07d0_0875_0843_086f_0847_0842_0868_0884_085f_088b_088c_083f_08a5_0841_0840_0882_0835_0898_0899_0832_0836_0897_0864_0869_0867_0896_0889_088f_085d_085a_07d0_0831_088d_085b_0859_0851_07d0_0845_0849_086d_0858_086e_084a_0861_0860_0862_07d0_0866_084b_07d0_07d0_0938_07d0_0881_0894_08a6_08a7_0939_094b_098d_089e_089f_08a0_08a1_07d0_07d0_07d0_0863_0837_084c_087d_0850_0857_0874_08a4_097c_0879_083b_0893_087f_0947_094a_0945_0946_0971_0972_0996_0997_0998_0983_0942_07d0_0948_0949_07d0_0988_084d_0974_082b_0833_0854_08a2_08a3_07d0_0873_0846_0895_095e_0934_0961_07d0_07d0_07d0_07d0_07d0_07d0_07d0_093f_0940_087a_0965_07d0_0838_0991_0987_07d0_0968_0993_094d_095d_099b_095f_0960_097e_093d_0970_086a_095a_082c_0950_0936_0957_0937_094e_096a_0844_094c_0989_0973_0852_0999_0855_0978_07d0_0880_085e_07d0_07d0_096c_098b_096e_0984_0967_097f_0944_0977_0994_095b_097b_0995_0802_07d0_07d0_0930_07d0_07d0_07d0_07d0_07d0_07d0_07d0_07d0_0839_07d0_097a_0990_0959_099c_097d_0935_0979_07d0_093b_093e_099a_098e_0954_0955_07d0_07d0_07d0_07d0_07d0_07d0_07d0_096b_096f_0981_0964_07d0_07d0_07d0_07d0_07d0_07d0_07d0_07d0_0951_07d0_0976_07d0_07d0_07d0_0941_093c_07d0_0969_07d0_07d0_07d0_0943_07d0_0952_0982_07d0_0932_0986_098c_0966_089b_098f_0963_0962_0871_07d0_083c_07d0_0886_0848_095c_0853_0980_0992_096d_098a_094f_0958_083e_0956_0878_086b_0892_0975_086c_0876_0856_088a_0872_0891_089c_089d_0888_089a_087b_0834_0865_082a_0870_0877_07d0_083d_07d0_08a8_08a9_08aa_08ab_08ac_08ad_08ae_093a_0933_0953_0985_082d_0887_0890_083a_087c_0830_088e_0883_0885_085c_084e_084f_087e_082e_082f_07d0_0875_0843_086f_0847_0842_0868_0884_085f_088b_088c_083f_08a5_0841_0840_0882_0835_0898_0899_0832_0836_0897_0864_0869_0867_0896_0889_088f_085d_085a_07d0_0831_088d_085b_0859_0851_07d0_0845_0849_086d_0858_086e_084a_0861_0860_0862_07d0_0866_084b_07d0_07d0_0938_07d0_0881_0894_08a6_08a7_0939_094b_098d_089e_089f_08a0_08a1_07d0_07d0_07d0_0863_0837_084c_087d_0850_0857_0874_08a4_097c_0879_083b_0893_087f_0947_094a_0945_0946_0971_0972_0996_0997_0998_0983_0942_07d0_0948_0949_07d0_0988_084d_0974_082b_0833_0854_08a2_08a3_07d0_0873_0846_0895_095e_0934_0961_07d0_07d0_07d0_07d0_07d0_07d0_07d0_093f_0940_087a_0965_07d0_0838_0991_0987_07d0_0968_0993_094d_095d_099b_095f_0960_097e_093d_0970_086a_095a_082c_0950_0936_0957_0937_094e_096a_0844_094c_0989_0973_0852_0999_0855_0978_07d0_0880_085e_07d0_07d0_096c_098b_096e_0984_0967_097f_0944_0977_0994_095b_097b_0995_07d0_07d0_07d0_08e0_07d0_07d0_07d0_07d0_07d0_07d0_07d0_07d0_0839_07d0_097a_0990_0959_099c_097d_0935_0979_07d0_093b_093e_099a_098e_0954_0955_07d0_07d0_07d0_07d0_07d0_07d0_07d0_096b_096f_0981_0964_07d0_07d0_07d0_07d0_07d0_07d0_0aea_07d0_0951_07d0_0976_07d0_07d0_07d0_0941_093c_07d0_0969_07d0_07d0_07d0_0943_07d0_0952_0982_07d0_0932_0986_098c_0966_089b_098f_0963_0962_0871_07d0_083c_07d0_0886_0848_095c_0853_0980_0992_096d_098a_094f_0958_083e_0956_0878_086b_0892_0975_086c_0876_0856_088a_0872_0891_089c_089d_0888_089a_087b_0834_0865_082a_0870_0877_07d0_083d_07d0_08a8_08a9_08aa_08ab_08ac_08ad_08ae_093a_0933_0953_0985_082d_0887_0890_083a_087c_0830_088e_0883_0885_085c_084e_084f_087e_082e_082f_07d0_0875_0843_086f_0847_0842_0868_0884_085f_088b_088c_083f_08a5_0841_0840_0882_0835_0898_0899_0832_0836_0897_0864_0869_0867_0896_0889_088f_085d_085a_07d0_0831_088d_085b_0859_0851_07d0_0845_0849_086d_0858_086e_084a_0861_0860_0862_07d0_0866_084b_07d0_07d0_0938_07d0_0881_0894_08a6_08a7_0939_094b_098d_089e_089f_08a0_08a1_07d0_07d0_07d0_0863_0837_084c_087d_0850_0857_0874_08a4_097c_0879_083b_0893_087f_0947_094a_0945_0946_0971_0972_0996_0997_0998_0983_0942_07d0_0948_0949_07d0_0988_084d_0974_082b_0833_0854_08a2_08a3_07d0_0873_0846_0895_095e_0934_0961_07d0_07d0_07d0_07d0_07d0_07d0_07d0_093f_0940_087a_0965_07d0_0838_0991_0987_07d0_0968_0993_094d_095d_099b_095f_0960_097e_093d_0970_086a_095a_082c_0950_0936_0957_0937_094e_096a_0844_094c_0989_0973_0852_0999_0855_0978_07d0_0880_085e_07d0_07d0_096c_098b_096e_0984_0967_097f_0944_0977_0994_095b_097b_0995_07d0_07d0_07d0_0930_07d0_07d0_07d0_07d0_07d0_07d0_07d0_07d0_0839_07d0_097a_0990_0959_099c_097d_0935_0979_07d0_093b_093e_099a_098e_0954_0955_07d0_07d0_07d0_07d0_07d0_07d0_07d0_096b_096f_0981_0964_07d0_07d0_07d0_07d0_07d0_07d0_07d0_07d0_0951_07d0_0976_07d0_07d0_07d0_0941_093c_07d0_0969_07d0_07d0_07d0_0943_07d0_0952_0982_07d0_0932_0986_098c_0966_089b_098f_0963_0962_0871_07d0_083c_07d0_0886_0848_095c_0853_0980_0992_096d_098a_094f_0958_083e_0956_0878_086b_0892_0975_086c_0876_0856_088a_0872_0891_089c_089d_0888_089a_087b_0834_0865_082a_0870_0877_07d0_083d_07d0_08a8_08a9_08aa_08ab_08ac_08ad_08ae_093a_0933_0953_0985_082d_0887_0890_083a_087c_0830_088e_0883_0885_085c_084e_084f_087e_082e_082f_07d0_0875_0843_086f_0847_0842_0868_0884_085f_088b_088c_083f_08a5_0841_0840_0882_0835_0898_0899_0832_0836_0897_0864_0869_0867_0896_0889_088f_085d_085a_07d0_0831_088d_085b_0859_0851_07d0_0845_0849_086d_0858_086e_084a_0861_0860_0862_07d0_0866_084b_07d0_07d0_0938_07d0_0881_0894_08a6_08a7_0939_094b_098d_089e_089f_08a0_08a1_07d0_07d0_07d0_0863_0837_084c_087d_0850_0857_0874_08a4_097c_0879_083b_0893_087f_0947_094a_0945_0946_0971_0972_0996_0997_0998_0983_0942_07d0_0948_0949_07d0_0988_084d_0974_082b_0833_0854_08a2_08a3_07d0_0873_0846_0895_095e_0934_0961_07d0_07d0_07d0_07d0_07d0_07d0_07d0_093f_0940_087a_0965_07d0_0838_0991_0987_07d0_0968_0993_094d_095d_099b_095f_0960_097e_093d_0970_086a_095a_082c_0950_0936_0957_0937_094e_096a_0844_094c_0989_0973_0852_0999_0855_0978_07d0_0880_085e_07d0_07d0_096c_098b_096e_0984_0967_097f_0944_0977_0994_095b_097b_0995_07d0_07d0_07d0_08e0_07d0_07d0_07d0_07d0_07d0_07d0_07d0_07d0_0839_07d0_097a_0990_0959_099c_097d_0935_0979_07d0_093b_093e_099a_098e_0954_0955_07d0_07d0_07d0_07d0_07d0_07d0_07d0_096b_096f_0981_0964_07d0_07d0_07d0_07d0_07d0_07d0_07d0_07d0_0951_07d0_0976_07d0_07d0_07d0_0941_093c_07d0_0969_07d0_07d0_07d0_0943_07d0_0952_0982_07d0_0932_0986_098c_0966_089b_098f_0963_0962_0871_07d0_083c_07d0_0886_0848_095c_0853_0980_0992_096d_098a_094f_0958_083e_0956_0878_086b_0892_0975_086c_0876_0856_088a_0872_0891_089c_089d_0888_089a_087b_0834_0865_082a_0870_0877_07d0_083d_07d0_08a8_08a9_08aa_08ab_08ac_08ad_08ae_093a_0933_0953_0985_082d_0887_0890_083a_087c_0830_088e_0883_0885_085c_084e_084f_087e_082e_082f_07d0_0875_0843_086f_0847_0842_0868_0884_085f_088b_088c_083f_08a5_0841_0840_0882_0835_0898_0899_0832_0836_0897_0864_0869_0867_0896_0889_088f_085d_085a_07d0_0831_088d_085b_0859_0851_07d0_0845_0849_086d_0858_086e_084a_0861_0860_0862_07d0_0866_084b_07d0_07d0_0938_07d0_0881_0894_08a6_08a7_0939_094b_098d_089e_089f_08a0_08a1_07d0_07d0_07d0_0863_0837_084c_087d_0850_0857_0874_08a4_097c_0879_083b_0893_087f_0947_094a_0945_0946_0971_0972_0996_0997_0998_0983_0942_07d0_0948_0949_07d0_0988_084d_0974_082b_0833_0854_08a2_08a3_07d0_0873_0846_0895_095e_0934_0961_07d0_07d0_07d0_07d0_07d0_07d0_07d0_093f_0940_087a_0965_07d0_0838_0991_0987_07d0_0968_0993_094d_095d_099b_095f_0960_097e_093d_0970_086a_095a_082c_0950_0936_0957_0937_094e_096a_0844_094c_0989_0973_0852_0999_0855_0978_07d0_0880_085e_07d0_07d0_096c_098b_096e_0984_0967_097f_0944_0977_0994_095b_097b_0995_07d0_07d0_07d0_0930_07d0_07d0_07d0_07d0_07d0_07d0_07d0_07d0_0839_07d0_097a_0990_0959_099c_097d_0935_0979_07d0_093b_093e_099a_098e_0954_0955_07d0_07d0_07d0_07d0_07d0_07d0_07d0_096b_096f_0981_0964_07d0_07d0_07d0_07d0_07d0_07d0_07d0_07d0_0951_07d0_0976_07d0_07d0_07d0_0941_093c_07d0_0969_07d0_07d0_07d0_0943_07d0_0952_0982_07d0_0932_0986_098c_0966_089b_098f_0963_0962_0871_07d0_083c_07d0_0886_0848_095c_0853_0980_0992_096d_098a_094f_0958_083e_0956_0878_086b_0892_0975_086c_0876_0856_088a_0872_0891_089c_089d_0888_089a_087b_0834_0865_082a_0870_0877_07d0_083d_07d0_08a8_08a9_08aa_08ab_08ac_08ad_08ae_093a_0933_0953_0985_082d_0887_0890_083a_087c_0830_088e_0883_0885_085c_084e_084f_087e_082e_082f_07d0_0875_0843_086f_0847_0842_0868_0884_085f_088b_088c_083f_08a5_0841_0840_0882_0835_0898_0899_0832_092e_0897_0864_0869_0867_0896_0889_088f_085d_085a_07d0_0831_088d_085b_0859_0851_07d0_0845_0849_086d_0858_086e_084a_0861_0860_0862_07d0_0866_084b_07d0_07d0_0938_07d0_0881_0894_08a6_08a7_0939_094b_098d_089e_089f_08a0_08a1_07d0_07d0_07d0_092f_092d_084c_087d_0850_0857_0874_08a4_097c_0879_083b_0893_087f_0947_094a_0945_0946_0971_0972_0996_0997_0998_0983_0942_07d0_0948_0949_07d0_0988_084d_0974_082b_0833_0854_08a2_08a3_07d0_0873_0846_0895_095e_0934_0961_07d0_07d0_07d0_07d0_07d0_07d0_07d0_093f_0940_087a_0965_07d0_0838_0991_0987_07d0_0968_0993_094d_095d_099b_095f_0960_097e_093d_0970_086a_095a_082c_0950_0936_0957_0937_094e_096a_0844_094c_0989_0973_0852_0999_0855_0978_07d0_0880_085e_07d0_07d0_096c_098b_096e_0984_0967_097f_0944_0977_0994_095b_097b_0995_07d0_07d0_07d0_0828_07d0_07d0_07d0_07d0_07d0_07d0_07d0_07d0_0839_07d0_097a_0990_0959_099c_097d_0935_0979_07d0_093b_093e_099a_098e_0954_0955_07d0_07d0_07d0_07d0_07d0_07d0_07d0_096b_096f_0981_0964_07d0_07d0_07d0_07d0_07d0_07d0_07d0_07d0_0951_07d0_0976_07d0_07d0_07d0_0941_093c_07d0_0969_07d0_07d0_07d0_0943_07d0_0952_0982_07d0_0932_0986_098c_0966_089b_098f_0963_0962_0871_07d0_083c_07d0_0886_0848_095c_0853_0980_0992_096d_098a_094f_0958_083e_0956_0878_086b_0892_0975_086c_0876_0856_088a_0872_0891_089c_089d_0888_089a_087b_0834_0865_082a_0870_0877_07d0_083d_07d0_08a8_08a9_08aa_08ab_08ac_08ad_08ae_093a_0933_0953_0985_082d_0887_0890_083a_087c_0830_088e_0883_0885_085c_084e_084f_087e_082e_082f_07d0_0875_0843_086f_0847_0842_0868_0884_085f_088b_088c_083f_08a5_0841_0840_0882_0835_0898_0899_0832_0836_0897_0864_0869_0867_0896_0889_088f_085d_085a_07d0_0831_088d_085b_0859_0851_07d0_0845_0849_086d_0858_086e_084a_0861_0860_0862_07d0_0866_084b_07d0_07d0_0938_07d0_0881_0894_08a6_08a7_0939_094b_098d_089e_089f_08a0_08a1_07d0_07d0_07d0_0863_0837_084c_087d_0850_0857_0874_08a4_097c_0879_083b_0893_087f_0947_094a_0945_0946_0971_0972_0996_0997_0998_0983_0942_07d0_0948_0949_07d0_0988_084d_0974_082b_0833_0854_08a2_08a3_07d0_0873_0846_0895_095e_0934_0961_07d0_07d0_07d0_07d0_07d0_07d0_07d0_093f_0940_087a_0965_07d0_0838_0991_0987_07d0_0968_0993_094d_095d_099b_095f_0960_097e_093d_0970_086a_095a_082c_0950_0936_0957_0937_094e_096a_0844_094c_0989_0973_0852_0999_0855_0978_07d0_0880_085e_07d0_07d0_096c_098b_096e_0984_0967_097f_0944_0977_0994_095b_097b_0995_07d0_07d0_07d0_0930_07d0_07d0_07d0_07d0_07d0_07d0_07d0_07d0_0839_07d0_097a_0990_0959_099c_097d_0935_0979_07d0_093b_093e_099a_098e_0954_0955_07d0_07d0_07d0_07d0_07d0_07d0_07d0_096b_096f_0981_0964_07d0_07d0_07d0_07d0_07d0_07d0_07d0_07d0_0951_07d0_0976_07d0_07d0_07d0_0941_093c_07d0_0969_07d0_07d0_07d0_0943_07d0_0952_0982_07d0_0932_0986_098c_0966_089b_098f_0963_0962_0871_07d0_083c_07d0_0886_0848_095c_0853_0980_0992_096d_098a_094f_0958_083e_0956_0878_086b_0892_0975_086c_0876_0856_088a_0872_0891_089c_089d_0888_089a_087b_0834_0865_082a_0870_0877_07d0_083d_07d0_08a8_08a9_08aa_08ab_08ac_08ad_08ae_093a_0933_0953_0985_082d_0887_0a64_083a_087c_0830_088e_0883_0885_085c_084e_084f_087e_082e_082f_07d0_0875_0843_086f_0847_0842_0868_0884_085f_088b_088c_083f_08a5_0841_0840_0882_0835_0898_0899_0832_092e_0897_0864_0869_0867_0896_0889_088f_085d_085a_07d0_0831_088d_085b_0859_0851_07d0_0845_0849_086d_0858_086e_084a_0861_0860_0862_07d0_0866_084b_07d0_07d0_0938_07d0_0881_0894_08a6_08a7_0939_094b_098d_089e_089f_08a0_08a1_07d0_07d0_07d0_092f_092d_084c_087d_0850_0857_0874_08a4_097c_0879_083b_0893_087f_0947_094a_0945_0946_0971_0972_0996_0997_0998_0983_0942_07d0_0948_0949_07d0_0988_084d_0974_082b_0833_0854_08a2_08a3_07d0_0873_0846_0895_095e_0934_0961_07d0_07d0_07d0_07d0_07d0_07d0_07d0_093f_0940_087a_0965_07d0_0838_0991_0987_07d0_0968_0993_094d_095d_099b_095f_0960_097e_093d_0970_086a_095a_082c_0950_0936_0957_0937_094e_096a_0844_094c_0989_0973_0852_0999_0855_0978_07d0_0880_085e_07d0_07d0_096c_098b_096e_0984_0967_097f_0944_0977_0994_095b_097b_0995_07d0_07d0_07d0_0930_07d0_07d0_07d0_07d0_07d0_07d0_07d0_07d0_0839_07d0_097a_0990_0959_099c_097d_0935_0979_07d0_093b_093e_099a_098e_0954_0955_07d0_07d0_07d0_07d0_07d0_07d0_07d0_096b_096f_0981_0964_07d0_07d0_07d0_07d0_07d0_07d0_07d0_07d0_0951_07d0_0976_07d0_07d0_07d0_0941_093c_07d0_0969_07d0_07d0_07d0_0943_07d0_0952_0982_07d0_0932_0986_098c_0966_089b_098f_0963_0962_0871_07d0_083c_07d0_0886_0848_095c_0853_0980_0992_096d_098a_094f_0958_083e_0956_0878_086b_0892_0975_086c_0876_0856_088a_0872_0891_089c_089d_0888_089a_087b_0834_0865_082a_0870_0877_07d0_083d_07d0_08a8_08a9_08aa_08ab_08ac_08ad_08ae_093a_0933_0953_0985_082d_0887_0925_083a_087c_0830_088e_0883_0885_085c_084e_084f_087e_082e_082f_07d0_0875_0843_086f_0847_0842_0868_0884_085f_088b_088c_083f_08a5_0841_0840_0882_0835_0898_0899_0832_092e_0897_0864_0869_0867_0896_0889_088f_085d_085a_07d0_0831_088d_085b_0859_0851_07d0_0845_0849_086d_0858_086e_084a_0861_0860_0862_07d0_0866_084b_07d0_07d0_0938_07d0_0881_0894_08a6_08a7_0939_094b_098d_089e_089f_08a0_08a1_07d0_07d0_07d0_092f_092d_0928_0927_0850_0857_0874_08a4_097c_0879_083b_0893_087f_0947_094a_0945_0946_0971_0972_0996_0997_0998_0983_0942_07d0_0948_0949_07d0_0988_084d_0974_082b_0833_0854_08a2_08a3_07d0_0873_0846_0895_095e_0934_0961_07d0_07d0_07d0_07d0_07d0_07d0_07d0_093f_0940_087a_0965_086a_0838_082c_07d0_07d0_08e2_07d0_07d0_07d0_0844_08df_07d0_07d0_0852_0909_0855_07d0_07d0_0880_085e_07d0_07d0_07d0_07d0_0900_0901_07d0_07d0_07d0_07d0_07d0_07d0_0b4f_07d0_0802_07d0_07d0_08e0_08f4_08f3_08f6_08f7_08f8_08f9_07d0_07d0_0839_08f5_08fa_08fb_08fc_0b50_07d0_07d0_08dd_08ed_07d0_0908_07d0_07d0_07d0_07d0_07d0_07d0_07d0_07d0_07d0_07d0_07d0_07d0_07d0_07d0_07d0_07d0_07d0_07d0_07d0_08ea_08eb_07d0_07d0_07d0_07d0_0915_07d0_08ec_07d0_07d0_08e8_08e9_08ee_07d0_07d0_07d0_07d0_07d0_07d0_07d0_07d0_07d0_07d0_07d0_07d0_089b_07d0_07d0_0913_0871_07d0_083c_07d0_0886_0848_07d0_0853_07d0_07d0_07d0_07d0_07d0_07d0_083e_07d0_0878_086b_0892_07d0_086c_0876_0856_088a_0872_0891_089c_089d_0888_089a_087b_0834_0865_082a_0870_0877_07d0_083d_07d0_08a8_08a9_08aa_08ab_08ac_08ad_08ae_07d0_07d0_07d0_07d0_082d_0887_0890_083a_087c_0830_088e_0883_0885_085c_084e_084f_087e_082e_082f_07d0_0875_0843_086f_0847_0842_0868_0884_085f_088b_088c_083f_08a5_0841_0840_0882_0835_0898_0899_0832_0836_0897_0864_0869_0867_0896_0889_088f_085d_085a_07d0_0831_088d_085b_0859_0851_07d0_0845_0849_086d_0858_086e_084a_0861_0860_0862_07d0_0866_084b_07d0_07d0_07d0_07d0_0881_0894_08a6_08a7_07d0_07d0_07d0_089e_089f_08a0_08a1_07d0_07d0_07d0_0863_0837_084c_087d_0850_0857_0874_08a4_07d0_0879_083b_0893_087f_090a_0914_0910_0911_090e_090f_090d_090c_090b_0916_0902_0903_0904_0905_0907_07d0_084d_0906_082b_0833_0854_08a2_08a3_07d0_0873_0846_0895_07d0_07d0_07d0_07d0_07d0_07d0_07d0_07d0_086a_07d0_082c_0b0f_087a_08e2_0912_0838_07d0_0844_08df_07d0_07d0_0852_0909_0855_07d0_07d0_0880_085e_07d0_07d0_07d0_07d0_0900_0901_07d0_07d0_07d0_07d0_07d0_07d0_07d0_07d0_0802_07d0_07d0_08e0_08f4_08f3_08f6_08f7_08f8_08f9_07d0_07d0_0839_08f5_08fa_08fb_08fc_07d0_07d0_07d0_08dd_08ed_07d0_0908_07d0_07d0_07d0_07d0_07d0_07d0_07d0_07d0_07d0_07d0_07d0_07d0_07d0_07d0_07d0_07d0_07d0_07d0_07d0_08ea_08eb_08d9_07d0_07d0_07d0_0915_07d0_08ec_07d0_07d0_08e8_08e9_08ee_07d0_07d0_07d0_07d0_07d0_07d0_07d0_07d0_07d0_07d0_07d0_07d0_089b_07d0_07d0_0913_0871_07d0_083c_07d0_0886_0848_07d0_0853_07d0_07d0_07d0_07d0_07d0_07d0_083e_07d0_0878_086b_0892_07d0_086c_0876_0856_088a_0872_0891_089c_089d_0888_089a_087b_0834_0865_082a_0870_0877_07d0_083d_07d0_08a8_08a9_08aa_08ab_08ac_08ad_08ae_07d0_07d0_07d0_07d0_082d_0887_0890_083a_087c_0830_088e_0883_0885_085c_084e_084f_087e_082e_082f_07d0_0875_0843_086f_0847_0842_0868_0884_085f_088b_088c_083f_08a5_0841_0840_0882_0835_0898_0899_0832_0836_0897_0864_0869_0867_0896_0889_088f_085d_085a_07d0_0831_088d_085b_0859_0851_07d0_0845_0849_086d_0858_086e_084a_0861_0860_0862_07d0_0866_084b_07d0_07d0_07d0_07d0_0881_0894_08a6_08a7_07d0_07d0_07d0_089e_089f_08a0_08a1_07d0_07d0_07d0_0863_0837_084c_087d_0850_0857_0874_08a4_07d0_0879_083b_0893_087f_090a_0914_0910_0911_090e_090f_090d_090c_090b_0916_0902_0903_0904_0905_0907_07d0_084d_0906_082b_0833_0854_08a2_08a3_07d0_0873_0846_0895_07d0_07d0_07d0_07d0_07d0_07d0_07d0_07d0_086a_07d0_082c_07d0_087a_08e2_0912_0838_07d0_0844_08df_07d0_07d0_0852_0909_0855_07d0_07d0_0880_085e_07d0_07d0_07d0_07d0_0900_0901_07d0_07d0_07d0_07d0_07d0_07d0_07d0_07d0_0802_07d0_09ce_08e0_08f4_08f3_08f6_08f7_08f8_08f9_07d0_07d0_0839_08f5_08fa_08fb_08fc_07d0_07d0_07d0_08dd_08ed_07d0_0908_07d0_07d0_07d0_07d0_07d0_07d0_07d0_07d0_07d0_07d0_07d0_07d0_07d0_07d0_07d0_07d0_07d0_07d0_07d0_08ea_08eb_07d0_07d0_07d0_07d0_0915_07d0_08ec_07d0_07d0_08e8_08e9_08ee_07d0_07d0_07d0_07d0_07d0_07d0_07d0_07d0_07d0_07d0_07d0_07d0_089b_07d0_07d0_0913_0871_07d0_083c_07d0_0886_0848_07d0_0853_07d0_07d0_07d0_07d0_07d0_07d0_083e_07d0_0878_086b_0892_07d0_086c_0876_0856_088a_0872_0891_089c_089d_0888_089a_087b_0834_0865_082a_0870_0877_07d0_083d_07d0_08a8_08a9_08aa_08ab_08ac_08ad_08ae_07d0_07d0_07d0_07d0_082d_0887_0890_083a_087c_0830_088e_0883_0885_085c_084e_084f_087e_082e_082f_07d0_0875_0843_086f_0847_0842_0868_0884_085f_088b_088c_083f_08a5_0841_0840_0882_0835_0898_0899_0832_0836_0897_0864_0869_0867_0896_0889_088f_085d_085a_07d0_0831_088d_085b_0859_0851_07d0_0845_0849_086d_0858_086e_084a_0861_0860_0862_07d0_0866_084b_07d0_07d0_07d0_07d0_0881_0894_08a6_08a7_07d0_07d0_07d0_089e_089f_08a0_08a1_07d0_07d0_07d0_0863_0837_084c_087d_0850_0857_0874_08a4_07d0_0879_083b_0893_087f_090a_0914_0910_0911_090e_090f_090d_090c_090b_0916_0902_0903_0904_0905_0907_07d0_084d_0906_082b_0833_0854_08a2_08a3_07d0_0873_0846_0895_07d0_07d0_07d0_07d0_07d0_07d0_07d0_07d0_086a_07d0_082c_07d0_087a_08e2_0912_0838_07d0_0844_08df_07d0_07d0_0852_0909_0855_07d0_07d0_0880_085e_07d0_07d0_07d0_07d0_0900_0901_07d0_07d0_07d0_07d0_07d0_07d0_07d0_07d0_0802_07d0_07d0_08e0_08f4_08f3_08f6_08f7_08f8_08f9_07d0_07d0_0839_08f5_08fa_08fb_08fc_07d0_07d0_07d0_08dd_08ed_07d0_0908_07d0_07d0_07d0_07d0_07d0_07d0_07d0_07d0_07d0_07d0_07d0_07d0_07d0_07d0_07d0_07d0_07d0_07d0_07d0_08ea_08eb_08d9_07d0_07d0_07d0_0915_07d0_08ec_07d0_07d0_08e8_08e9_08ee_07d0_07d0_07d0_07d0_07d0_07d0_07d0_07d0_07d0_07d0_07d0_07d0_089b_07d0_07d0_0913_0871_07d0_083c_07d0_0886_0848_07d0_0853_07d0_07d0_07d0_07d0_07d0_07d0_083e_07d0_0878_086b_0892_07d0_086c_0876_0856_088a_0872_0891_089c_089d_0888_089a_087b_0834_0865_082a_0870_0877_07d0_083d_07d0_08a8_08a9_08aa_08ab_08ac_08ad_08ae_07d0_07d0_07d0_07d0_082d_0887_0890_083a_087c_0830_088e_0883_0885_085c_084e_084f_087e_082e_082f_07d0_0875_0843_086f_0847_0842_0868_0884_085f_088b_088c_083f_08a5_0841_0840_0882_0835_0898_0899_0832_0836_0897_0864_0869_0867_0896_0889_088f_085d_085a_07d0_0831_088d_085b_0859_0851_07d0_0845_0849_086d_0858_086e_084a_0861_0860_0862_07d0_0866_084b_07d0_07d0_07d0_07d0_0881_0894_08a6_08a7_07d0_07d0_07d0_089e_089f_08a0_08a1_07d0_07d0_07d0_0863_0837_084c_087d_0850_0857_0874_08a4_07d0_0879_083b_0893_087f_090a_0914_0910_0911_090e_090f_090d_090c_090b_0916_0902_0903_0904_0905_0907_07d0_084d_0906_082b_0833_0854_08a2_08a3_07e7_0873_0846_0895_07d0_07d0_07d0_07d0_07d0_07d0_07d0_07d0_086a_07d0_082c_07d0_087a_08e2_0912_0838_07d0_0844_08df_07d0_07d0_0852_0909_0855_07d0_07d0_0880_085e_07d0_07d0_07d0_07d0_0900_0901_07d0_07d0_07d0_07d0_07d0_07d0_07d0_07d0_0802_07d0_07d0_08e0_08f4_08f3_08f6_08f7_08f8_08f9_07d0_07d0_0839_08f5_08fa_08fb_08fc_07d0_07d0_07d0_08dd_08ed_07d0_0908_07d0_07d0_07d0_07d0_07d0_07d0_07d0_07d0_07d0_07d0_07d0_07d0_07d0_07d0_07d0_07d0_07d0_07d0_07d0_08ea_08eb_07d0_07d0_07d0_07d0_0915_07d0_08ec_07d0_07d0_08e8_08e9_08ee_07d0_07d0_07d0_07d0_07d0_07d0_07d0_07d0_07d0_07d0_07d0_07d0_089b_07d0_07d0_0913_0871_07d0_083c_07d0_0886_0848_07d0_0853_07d0_07d0_07d0_07d0_07d0_07d0_083e_07d0_0878_086b_0892_07d0_086c_0876_0856_088a_0872_0891_089c_089d_0888_089a_087b_0834_0865_082a_0870_0877_07d0_083d_07d0_08a8_08a9_08aa_08ab_08ac_08ad_08ae_07d0_07d0_07d0_07d0_082d_0887_0890_083a_087c_0830_088e_0883_0885_085c_084e_084f_087e_082e_082f_07d0_0875_0843_086f_0847_0842_0868_0884_085f_088b_088c_083f_08a5_0841_0840_0882_0835_0898_0899_0832_0836_0897_0864_0869_0867_0896_0889_088f_085d_085a_07d0_0831_088d_085b_0859_0851_07d0_0845_0849_086d_0858_086e_084a_0861_0860_0862_07d0_0866_084b_07d0_07d0_07d0_07d0_0881_0894_08a6_08a7_07d0_07d0_07d0_089e_089f_08a0_08a1_07d0_07d0_07d0_0863_0837_084c_087d_0850_0857_0874_08a4_07d0_0879_083b_0893_087f_090a_0914_0910_0911_090e_090f_090d_090c_090b_0916_0902_0903_0904_0905_0907_07d0_084d_0906_082b_0833_0854_08a2_08a3_07d0_0873_0846_0895_07d0_07d0_07d0_07d0_07d0_07d0_07d0_07d0_086a_07d0_082c_07d0_087a_08e2_0912_0838_07d0_0844_08df_07d0_07d0_0852_0909_0855_07d0_07d0_0880_085e_07d0_07d0_07d0_07d0_0900_0901_07d0_07d0_07d0_07d0_07d0_07d0_07d0_07d0_0802_07d0_07d0_08e0_08f4_08f3_08f6_08f7_08f8_08f9_07d0_07d0_0839_08f5_08fa_08fb_08fc_07d0_07d0_07d0_08dd_08ed_07d0_0908_07d0_07d0_07d0_07d0_07d0_07d0_07d0_07d0_07d0_07d0_07d0_07d0_07d0_07d0_07d0_07d0_07d0_07d0_07d0_08ea_08eb_07d0_07d0_07d0_07d0_0915_07d0_08ec_07d0_07d0_08e8_08e9_08ee_07d0_07d0_07d0_07d0_07d0_07d0_07d0_07d0_07d0_07d0_07d0_07d0_089b_07d0_07d0_0913_0871_07d0_083c_07d0_0886_0848_07d0_0853_07d0_07d0_07d0_07d0_07d0_07d0_083e_07d0_0878_086b_0892_07d0_086c_0876_0856_088a_0872_0891_089c_089d_0888_089a_087b_0834_0865_082a_0870_0877_07d0_083d_07d0_08a8_08a9_08aa_08ab_08ac_08ad_08ae_07d0_07d0_07d0_07d0_082d_0887_0890_083a_087c_0830_088e_0883_0885_085c_084e_084f_087e_082e_082f_07d0_0875_0843_086f_0847_0842_0868_0884_085f_088b_088c_083f_08a5_0841_0840_0882_0835_0898_0899_0832_0836_0897_0864_0869_0867_0896_0889_088f_085d_085a_07d0_0831_088d_085b_0859_0851_07d0_0845_0849_086d_0858_086e_084a_0861_0860_0862_07d0_0866_084b_07d0_07d0_07d0_07d0_0881_0894_08a6_08a7_07d0_07d0_07d0_089e_089f_08a0_08a1_07d0_07d0_07d0_0863_0837_084c_087d_0850_0857_0874_08a4_07d0_0879_083b_0893_087f_090a_0914_0910_0911_090e_090f_090d_090c_090b_0916_0902_0903_0904_0905_0907_07d0_084d_0906_082b_0833_0854_08a2_08a3_07d0_0873_0846_0895_07d0_07d0_07d0_07d0_086a_07d0_082c_07d0_07d0_07d0_07d0_07d0_087a_0844_0912_0838_07d0_0852_0909_0855_07d0_07d0_0880_085e_07d0_07d0_07d0_07d0_0900_0901_07d0_07d0_07d0_07d0_07d0_07d0_07d0_07d0_0802_07d0_07d0_08e0_08f4_08f3_08f6_08f7_08f8_08f9_07d0_07d0_0839_08f5_08fa_08fb_08fc_07d0_07d0_07d0_07d0_08ed_07d0_0908_07d0_07d0_07d0_07d0_07d0_07d0_07d0_07d0_07d0_07d0_07d0_07d0_07d0_07d0_07d0_07d0_07d0_07d0_07d0_08ea_08eb_07d0_07d0_07d0_07d0_0915_07d0_08ec_07d0_07d0_08e8_08e9_08ee_07d0_07d0_07d0_07d0_07d0_07d0_07d0_07d0_07d0_07d0_07d0_07d0_089b_07d0_07d0_0913_0871_07d0_083c_07d0_0886_0848_07d0_0853_07d0_07d0_07d0_07d0_07d0_07d0_083e_07d0_0878_086b_0892_0e72_086c_0876_0856_088a_0872_0891_089c_089d_0888_089a_087b_0834_0865_082a_0870_0877_07d0_083d_07d0_08a8_08a9_08aa_08ab_08ac_08ad_08ae_07d0_07d0_07d0_07d0_082d_0887_0890_083a_087c_0830_088e_0883_0885_085c_084e_084f_087e_082e_082f_07d0_0875_0843_086f_0847_0842_0868_0884_085f_088b_088c_083f_08a5_0841_0840_0882_0835_0898_0899_0832_0836_0897_0864_0869_0867_0896_0889_088f_085d_085a_07d0_0831_088d_085b_0859_0851_07d0_0845_0849_086d_0858_086e_084a_0861_0860_0862_07d0_0866_084b_07d0_07d0_07d0_07d0_0881_0894_08a6_08a7_07d0_07d0_07d0_089e_089f_08a0_08a1_07d0_07d0_07d0_0863_0837_084c_087d_0850_0857_0874_08a4_07d0_0879_083b_0893_087f_090a_0914_0910_0911_090e_090f_090d_090c_090b_0916_0902_0903_0904_0905_0907_07d0_084d_0906_082b_0833_0854_08a2_08a3_07d0_0873_0846_0895_07d0_07d0_07d0_07d0_086a_07d0_082c_07d0_07d0_07d0_07d0_07d0_087a_0844_0912_0838_07d0_0852_0909_0855_07d0_07d0_0880_085e_07d0_07d0_07d0_07d0_0900_0901_07d0_07d0_07d0_07d0_07d0_07d0_07d0_07d0_0802_07d0_07d0_08e0_08f4_08f3_08f6_08f7_08f8_08f9_07d0_07d0_0839_08f5_08fa_08fb_08fc_07d0_07d0_07d0_07d0_08ed_07d0_0908_07d0_07d0_07d0_07d0_07d0_07d0_07d0_07d0_07d0_07d0_07d0_07d0_07d0_07d0_07d0_07d0_07d0_07d0_07d0_08ea_08eb_07d0_07d0_07d0_07d0_0915_07d0_08ec_07d0_07d0_08e8_08e9_08ee_07d0_07d0_07d0_07d0_07d0_07d0_07d0_07d0_07d0_07d0_07d0_07d0_089b_07d0_07d0_0913_0871_07d0_083c_07d0_0886_0848_07d0_0853_07d0_07d0_07d0_07d0_07d0_07d0_083e_07d0_0878_086b_0892_07d0_086c_0876_0856_088a_0872_0891_089c_089d_0888_089a_087b_0834_0865_082a_0870_0877_07d0_083d_07d0_08a8_08a9_08aa_08ab_08ac_08ad_08ae_07d0_07d0_07d0_07d0_082d_0887_0890_083a_087c_0830_088e_0883_0885_085c_084e_084f_087e_082e_082f_07d0_0875_0843_086f_0847_0842_0868_0884_085f_088b_088c_083f_08a5_0841_0840_0882_0835_0898_0899_0832_0836_0897_0864_0869_0867_0896_0889_088f_085d_085a_07d0_0831_088d_085b_0859_0851_07d0_0845_0849_086d_0858_086e_084a_0861_0860_0862_07d0_0866_084b_07d0_07d0_07d0_07d0_0881_0894_08a6_08a7_07d0_07d0_07d0_089e_089f_08a0_08a1_07d0_07d0_07d0_0863_0837_084c_087d_0850_0857_0874_08a4_07d0_0879_083b_0893_087f_090a_0914_0910_0911_090e_090f_090d_090c_090b_0916_0902_0903_0904_0905_0907_07d0_084d_0906_082b_0833_0854_08a2_08a3_07d0_0873_0846_0895_07d0_07d0_07d0_07d0_086a_07d0_082c_07d0_07d0_07d0_07d0_07d0_087a_0844_0912_0838_07d0_0852_07d0_0855_07d0_07d0_0880_085e_07d0_07d0_07d0_07d0_07d0_07d0_07d0_07d0_07d0_07d0_07d0_07d0_07d0_07d0_07d0_07d0_07d0_0930_07d0_07d0_07d0_07d0_07d0_07d0_07d0_07d0_0839_07d0_07d0_07d0_07d0_07d0_07d0_07d0_07d0_07d0_07d0_07d0_07d0_07d0_07d0_07d0_07d0_07d0_07d0_07d0_07d0_07d0_07d0_07d0_07d0_07d0_07d0_09f0_09ef_09f9_09fa_09f2_09f3_09f4_09f5_09f6_09f7_09f8_09f1_07d0_07d0_09fb_07d0_07d0_07d0_07d0_07d0_07d0_07d0_07d0_07d0_07d0_07d0_07d0_07d0_07d0_07d0_089b_07d0_07d0_07d0_0871_07d0_083c_07d0_0886_0848_07d0_0853_07d0_07d0_07d0_07d0_07d0_07d0_083e_07d0_0878_086b_0892_07d0_086c_0876_0856_088a_0872_0891_089c_089d_0888_089a_087b_0834_0865_082a_0870_0877_07d0_083d_07d0_08a8_08a9_08aa_08ab_08ac_08ad_08ae_07d0_07d0_07d0_07d0_082d_0887_0890_083a_087c_0830_088e_0883_0885_085c_084e_084f_087e_082e_082f_07d0_0875_0843_086f_0847_0842_0868_0884_085f_088b_088c_083f_08a5_0841_0840_0882_0835_0898_0899_0832_0836_0897_0864_0869_0867_0896_0889_088f_085d_085a_07d0_0831_088d_085b_0859_0851_07d0_0845_0849_086d_0858_086e_084a_0861_0860_0862_07d0_0866_084b_07d0_07d0_07d0_07d0_0881_0894_08a6_08a7_07d0_07d0_07d0_089e_089f_08a0_08a1_07d0_07d0_07d0_0863_0837_084c_087d_0850_0857_0874_08a4_07d0_0879_083b_0893_087f_07d0_07d0_07d0_07d0_07d0_07d0_07d0_07d0_07d0_07d0_07d0_07d0_07d0_07d0_07d0_07d0_084d_07d0_082b_0833_0854_08a2_08a3_07d0_0873_0846_0895_07d0_07d0_07d0_07d0_086a_07d0_082c_07d0_09e4_07d0_07d0_07d0_087a_0844_09fc_0838_07d0_0852_07d0_0855_07d0_07d0_0880_085e_07d0_07d0_07d0_07d0_07d0_07d0_07d0_07d0_07d0_07d0_07d0_07d0_07d0_07d0_07d0_07d0_07d0_0930_07d0_09e6_07d0_07d0_07d0_07d0_07d0_07d0_0839_07d0_07d0_07d0_07d0_07d0_09e1_09e0_07d0_07d0_07d0_07d0_07d0_07d0_07d0_07d0_07d0_07d0_07d0_07d0_07d0_07d0_07d0_09e2_07d0_07d0_07d0_07d0_07d0_07d0_07d0_07d0_07d0_07d0_07d0_07d0_07d0_07d0_07d0_07d0_07d0_07d0_07d0_07d0_07d0_07d0_07d0_07d0_07d0_07d0_07d0_07d0_07d0_07d0_07d0_07d0_07d0_089b_07d0_07d0_07d0_0871_07d0_083c_07d0_0886_0848_07d0_0853_07d0_07d0_07d0_07d0_07d0_07d0_083e_07d0_0878_086b_0892_07d0_086c_0876_0856_088a_0872_0891_089c_089d_0888_089a_087b_0834_0865_082a_0870_0877_07d0_083d_07d0_08a8_08a9_08aa_08ab_08ac_08ad_08ae_07d0_07d0_07d0_07d0_082d_0887_0890_083a_087c_0830_088e_0883_0885_085c_084e_084f_087e_082e_082f_07d0_0875_0843_086f_0847_0842_0868_0884_085f_088b_088c_083f_08a5_0841_0840_0882_0835_0898_0899_0832_0836_0897_0864_0869_0867_0896_0889_088f_085d_085a_07d0_0831_088d_085b_0859_0851_07d0_0845_0849_086d_0858_086e_084a_0861_0860_0862_07d0_0866_084b_07d0_07d0_07d0_07d0_0881_0894_08a6_08a7_07d0_07d0_07d0_089e_089f_08a0_08a1_07d0_07d0_07d0_0863_0837_084c_087d_0850_0857_0874_08a4_07d0_0879_083b_0893_087f_07d0_07d0_07d0_07d0_07d0_07d0_07d0_07d0_07d0_07d0_07d0_07d0_07d0_07d0_07d0_07d0_084d_07d0_082b_0833_0854_08a2_08a3_07d0_0873_0846_0895_07d0_086a_07d0_082c_07d0_0a59_07d0_07d0_07d0_07d0_0844_07d0_087a_07d0_0852_0838_0855_07d0_07d0_0880_085e_07d0_07d0_07d0_07d0_07d0_07d0_07d0_07d0_07d0_07d0_07d0_07d0_07d0_07d0_07d0_07d0_07d0_0828_07d0_0a5b_07d0_07d0_07d0_07d0_07d0_07d0_0839_07d0_07d0_07d0_07d0_07d0_07d0_07d0_07d0_07d0_07d0_07d0_07d0_07d0_07d0_07d0_07d0_07d0_07d0_07d0_07d0_07d0_07d0_07d0_07d0_07d0_07d0_07d0_07d0_07d0_07d0_07d0_07d0_07d0_07d0_07d0_07d0_07d0_07d0_07d0_07d0_07d0_07d0_07d0_07d0_07d0_07d0_07d0_07d0_07d0_07d0_07d0_07d0_07d0_07d0_07d0_07d0_089b_07d0_07d0_07d0_0871_07d0_083c_07d0_0886_0848_07d0_0853_07d0_07d0_07d0_07d0_07d0_07d0_083e_07d0_0878_086b_0892_07d0_086c_0876_0856_088a_0872_0891_089c_089d_0888_089a_087b_0834_0865_082a_0870_0877_07d0_083d_07d0_08a8_08a9_08aa_08ab_08ac_08ad_08ae_07d0_07d0_07d0_07d0_082d_0887_0890_083a_087c_0830_088e_0883_0885_085c_084e_084f_087e_082e_082f_07d0_0875_0843_086f_0847_0842_0868_0884_085f_088b_088c_083f_08a5_0841_0840_0882_0835_0898_0899_0832_0836_0897_0864_0869_0867_0896_0889_088f_085d_085a_07d0_0831_088d_085b_0859_0851_07d0_0845_0849_086d_0858_086e_084a_0861_0860_0862_07d0_0866_084b_07d0_07d0_07d0_07d0_0881_0894_08a6_08a7_07d0_07d0_07d0_089e_089f_08a0_08a1_07d0_07d0_07d0_0863_0837_084c_087d_0850_0857_0874_08a4_07d0_0879_083b_0893_087f_07d0_07d0_07d0_07d0_07d0_07d0_07d0_07d0_07d0_07d0_07d0_07d0_07d0_07d0_07d0_07d0_084d_07d0_082b_0833_0854_08a2_08a3_07e7_0873_0846_0895_07d0_07d0_07d0_07d0_07d0_07d0_07d0_07d0_086a_07d0_082c_07d0_087a_07d0_07d0_0838_07d0_0844_07d0_07d0_07d0_0852_07d0_0855_07d0_07d0_0880_085e_07d0_07d0_07d0_07d0_07d0_07d0_07d0_07d0_07d0_07d0_07d0_07d0_07d0_07d0_0802_07d0_07d0_0930_07d0_07d0_07d0_07d0_07d0_07d0_07d0_07d0_0839_07d0_07d0_07d0_07d0_07d0_07d0_07d0_07d0_07d0_07d0_07d0_07d0_07d0_07d0_07d0_07d0_07d0_07d0_07d0_07d0_07d0_07d0_07d0_07d0_07d0_07d0_07d0_07d0_07d0_07d0_07d0_07d0_07d0_07d0_07d0_07d0_07d0_07d0_07d0_07d0_07d0_07d0_07d0_07d0_07d0_07d0_07d0_07d0_07d0_07d0_07d0_07d0_07d0_07d0_07d0_07d0_089b_07d0_07d0_07d0_0871_07d0_083c_07d0_0886_0848_07d0_0853_07d0_07d0_07d0_07d0_07d0_07d0_083e_07d0_0878_086b_0892_07d0_086c_0876_0856_088a_0872_0891_089c_089d_0888_089a_087b_0834_0865_082a_0870_0877_07d0_083d_07d0_08a8_08a9_08aa_08ab_08ac_08ad_08ae_07d0_07d0_07d0_07d0_082d_0887_0890_083a_087c_0830_088e_0883_0885_085c_084e_084f_087e_082e_082f_07d0_0875_0843_086f_0847_0842_0868_0884_085f_088b_088c_083f_08a5_0841_0840_0882_0835_0898_0899_0832_0836_0897_0864_0869_0867_0896_0889_088f_085d_085a_07d0_0831_088d_085b_0859_0851_07d0_0845_0849_086d_0858_086e_084a_0861_0860_0862_07d0_0866_084b_07d0_07d0_07d0_07d0_0881_0894_08a6_08a7_07d0_07d0_07d0_089e_089f_08a0_08a1_07d0_07d0_07d0_0863_0837_084c_087d_0850_0857_0874_08a4_07d0_0879_083b_0893_087f_07d0_07d0_07d0_07d0_07d0_07d0_07d0_07d0_07d0_07d0_07d0_07d0_07d0_07d0_07d0_07d0_084d_07d0_082b_0833_0854_08a2_08a3_07e7_0873_0846_0895_07d0_07d0_07d0_07d0_07d0_07d0_07d0_07d0_086a_07d0_082c_07d0_087a_07d0_07d0_0838_07d0_0844_07d0_07d0_07d0_0852_07d0_0855_07d0_07d0_0880_085e_07d0_07d0_07d0_07d0_07d0_07d0_07d0_07d0_07d0_07d0_07d0_07d0_07d0_07d0_0802_07d0_07d0_0828_07d0_07d0_07d0_07d0_07d0_07d0_07d0_07d0_0839_07d0_07d0_07d0_07d0_07d0_07d0_07d0_07d0_07d0_07d0_07d0_07d0_07d0_07d0_07d0_07d0_07d0_07d0_07d0_07d0_07d0_07d0_07d0_07d0_07d0_07d0_07d0_07d0_07d0_07d0_07d0_07d0_07d0_07d0_07d0_07d0_07d0_07d0_07d0_07d0_07d0_07d0_07d0_07d0_07d0_07d0_07d0_07d0_07d0_07d0_07d0_07d0_07d0_07d0_07d0_07d0_089b_07d0_07d0_07d0_0871_07d0_083c_07d0_0886_0848_07d0_0853_07d0_07d0_07d0_07d0_07d0_07d0_083e_07d0_0878_086b_0892_07d0_086c_0876_0856_088a_0872_0891_089c_089d_0888_089a_087b_0834_0865_082a_0870_0877_07d0_083d_07d0_08a8_08a9_08aa_08ab_08ac_08ad_08ae_07d0_07d0_07d0_07d0_082d_0887_0890_083a_087c_0830_088e_0883_0885_085c_084e_084f_087e_082e_082f_07d0_0875_0843_086f_0847_0842_0868_0884_085f_088b_088c_083f_08a5_0841_0840_0882_0835_0898_0899_0832_0836_0897_0864_0869_0867_0896_0889_088f_085d_085a_07d0_0831_088d_085b_0859_0851_07d0_0845_0849_086d_0858_086e_084a_0861_0860_0862_07d0_0866_084b_07d0_07d0_07d0_07d0_0881_0894_08a6_08a7_07d0_07d0_07d0_089e_089f_08a0_08a1_07d0_07d0_07d0_0863_0837_084c_087d_0850_0857_0874_08a4_07d0_0879_083b_0893_087f_07d0_07d0_07d0_07d0_07d0_07d0_07d0_07d0_07d0_07d0_07d0_07d0_07d0_07d0_07d0_07d0_084d_07d0_082b_0833_0854_08a2_08a3_07d0_0873_0846_0895_07d0_086a_07d0_082c_07d0_07d0_07d0_07d0_07d0_07d0_0844_07d0_087a_07d0_0852_0838_0855_07d0_07d0_0880_085e_07d0_07d0_07d0_07d0_07d0_07d0_07d0_07d0_07d0_07d0_07d0_07d0_07d0_07d0_07d0_07d0_07d0_0930_07d0_07d0_0add_07d0_07d0_0ade_07d0_07d0_0839_07d0_07d0_07d0_07d0_07d0_07d0_07d0_07d0_07d0_07d0_07d0_07d0_07d0_07d0_07d0_07d0_07d0_07d0_07d0_07d0_07d0_07d0_07d0_07d0_07d0_07d0_07d0_07d0_07d0_07d0_07d0_07d0_07d0_07d0_07d0_07d0_07d0_07d0_07d0_07d0_07d0_07d0_07d0_07d0_07d0_07d0_07d0_07d0_07d0_07d0_07d0_07d0_07d0_07d0_07d0_07d0_089b_07d0_07d0_07d0_0871_07d0_083c_07d0_0886_0848_07d0_0853_07d0_07d0_07d0_07d0_07d0_07d0_083e_07d0_0878_086b_0892_07d0_086c_0876_0856_088a_0872_0891_089c_089d_0888_089a_087b_0834_0865_082a_0870_0877_07d0_083d_07d0_08a8_08a9_08aa_08ab_08ac_08ad_08ae_07d0_07d0_07d0_07d0_082d_0887_0890_083a_087c_0830_088e_0883_0885_085c_084e_084f_087e_082e_082f_07d0_0875_0843_086f_0847_0842_0868_0884_085f_088b_088c_083f_08a5_0841_0840_0882_0835_0898_0899_0832_0836_0897_0864_0869_0867_0896_0889_088f_085d_085a_07d0_0831_088d_085b_0859_0851_07d0_0845_0849_086d_0858_086e_084a_0861_0860_0862_07d0_0866_084b_07d0_07d0_07d0_07d0_0881_0894_08a6_08a7_07d0_07d0_07d0_089e_089f_08a0_08a1_07d0_07d0_07d0_0863_0837_084c_087d_0850_0857_0874_08a4_07d0_0879_083b_0893_087f_07d0_07d0_07d0_07d0_07d0_07d0_07d0_07d0_07d0_07d0_07d0_07d0_07d0_07d0_07d0_07d0_084d_07d0_082b_0833_0854_08a2_08a3_07d0_0873_0846_0895_07d0_086a_07d0_082c_07d0_07d0_07d0_07d0_07d0_07d0_0844_0a6d_087a_07d0_0852_0838_0855_07d0_07d0_0880_085e_07d0_07d0_07d0_07d0_07d0_07d0_07d0_07d0_07d0_07d0_07d0_07d0_07d0_07d0_07d0_07d0_07d0_0930_07d0_0a6c_07d0_07d0_07d0_07d0_07d0_07d0_0839_07d0_07d0_07d0_07d0_07d0_07d0_07d0_07d0_07d0_07d0_07d0_07d0_07d0_07d0_07d0_07d0_07d0_07d0_07d0_07d0_07d0_07d0_07d0_07d0_07d0_07d0_07d0_07d0_07d0_07d0_07d0_07d0_07d0_07d0_07d0_07d0_07d0_07d0_07d0_07d0_07d0_07d0_07d0_07d0_07d0_07d0_07d0_07d0_07d0_07d0_07d0_07d0_07d0_07d0_07d0_07d0_089b_07d0_07d0_07d0_0871_07d0_083c_07d0_0886_0848_07d0_0853_07d0_07d0_07d0_07d0_07d0_07d0_083e_07d0_0878_086b_0892_07d0_086c_0876_0856_088a_0872_0891_089c_089d_0888_089a_087b_0834_0865_082a_0870_0877_07d0_083d_07d0_08a8_08a9_08aa_08ab_08ac_08ad_08ae_07d0_07d0_07d0_07d0_082d_0887_0890_083a_087c_0830_088e_0883_0885_085c_084e_084f_087e_082e_082f_07d0_0875_0843_086f_0847_0842_0868_0884_085f_088b_088c_083f_08a5_0841_0840_0882_0835_0898_0899_0832_0836_0897_0864_0869_0867_0896_0889_088f_085d_085a_07d0_0831_088d_085b_0859_0851_07d0_0845_0849_086d_0858_086e_084a_0861_0860_0862_07d0_0866_084b_07d0_07d0_07d0_07d0_0881_0894_08a6_08a7_07d0_07d0_07d0_089e_089f_08a0_08a1_07d0_07d0_07d0_0863_0837_084c_087d_0850_0857_0874_08a4_07d0_0879_083b_0893_087f_07d0_07d0_07d0_07d0_07d0_07d0_07d0_07d0_07d0_07d0_07d0_07d0_07d0_07d0_07d0_07d0_084d_07d0_082b_0833_0854_08a2_08a3_07d0_0873_0846_0895_07d0_086a_07d0_082c_07d0_0a59_07d0_07d0_07d0_07d0_0844_07d0_087a_07d0_0852_0838_0855_07d0_07d0_0880_085e_07d0_07d0_07d0_07d0_07d0_07d0_07d0_07d0_07d0_07d0_07d0_07d0_07d0_07d0_07d0_07d0_07d0_0828_07d0_0a5b_07d0_07d0_07d0_07d0_07d0_07d0_0839_07d0_07d0_07d0_07d0_07d0_07d0_07d0_07d0_07d0_07d0_07d0_07d0_07d0_07d0_07d0_07d0_07d0_07d0_07d0_07d0_07d0_07d0_07d0_07d0_07d0_07d0_07d0_07d0_07d0_07d0_07d0_07d0_07d0_07d0_07d0_07d0_07d0_07d0_07d0_07d0_07d0_07d0_07d0_07d0_07d0_07d0_07d0_07d0_07d0_07d0_07d0_07d0_07d0_07d0_07d0_07d0_089b_07d0_07d0_07d0_0871_07d0_083c_07d0_0886_0848_07d0_0853_07d0_07d0_07d0_07d0_07d0_07d0_083e_07d0_0878_086b_0892_07d0_0a57_0876_0856_088a_0872_0891_089c_089d_0888_089a_087b_0834_0865_082a_0870_0877_07d0_083d_07d0_08a8_08a9_08aa_08ab_08ac_08ad_08ae_07d0_07d0_07d0_07d0_082d_0887_0890_083a_087c_0830_088e_0883_0885_085c_084e_084f_087e_082e_082f_07d0_0875_0843_086f_0847_0842_0868_0884_085f_088b_088c_083f_08a5_0841_0840_0882_0835_0898_0899_0832_0836_0897_0864_0869_0867_0896_0889_088f_085d_085a_07d0_0831_088d_085b_0859_0851_07d0_0845_0849_086d_0858_086e_084a_0861_0860_0862_07d0_0866_084b_07d0_07d0_07d0_07d0_0881_0894_08a6_08a7_07d0_07d0_07d0_089e_089f_08a0_08a1_07d0_07d0_07d0_0863_0837_084c_087d_0850_0857_0874_08a4_07d0_0879_083b_0893_087f_07d0_07d0_07d0_07d0_07d0_07d0_07d0_07d0_07d0_07d0_07d0_07d0_07d0_07d0_07d0_07d0_084d_07d0_082b_0833_0854_08a2_08a3_07d0_0873_0846_0895_07d0_086a_07d0_082c_07d0_07d0_07d0_07d0_07d0_07d0_0844_07d0_087a_07d0_0852_0838_0855_07d0_07d0_0880_085e_07d0_07d0_07d0_07d0_07d0_07d0_07d0_07d0_07d0_07d0_07d0_07d0_07d0_07d0_07d0_07d0_07d0_0930_07d0_07d0_07d0_07d0_07d0_07d0_07d0_07d0_0839_07d0_07d0_07d0_07d0_07d0_07d0_07d0_07d0_07d0_07d0_07d0_07d0_07d0_07d0_07d0_07d0_07d0_07d0_07d0_07d0_07d0_07d0_07d0_07d0_07d0_07d0_07d0_07d0_07d0_07d0_07d0_07d0_07d0_07d0_07d0_07d0_07d0_07d0_07d0_07d0_07d0_07d0_07d0_07d0_07d0_07d0_07d0_07d0_07d0_07d0_07d0_07d0_07d0_07d0_07d0_07d0_089b_07d0_07d0_07d0_0871_07d0_083c_07d0_0886_0848_07d0_0853_07d0_07d0_0d3e_07d0_07d0_07d0_083e_07d0_0878_086b_0892_07d0_086c_0876_0856_088a_0872_0891_089c_089d_0888_089a_087b_0834_0865_082a_0870_0877_07d0_083d_07d0_08a8_08a9_08aa_08ab_08ac_08ad_08ae_07d0_07d0_07d0_07d0_082d_0887_0890_083a_087c_0830_088e_0883_0885_085c_084e_084f_087e_082e_082f_07d0_0875_0843_086f_0847_0842_0868_0884_085f_088b_088c_083f_08a5_0841_0840_0882_0835_0898_0899_0832_0836_0897_0864_0869_0867_0896_0889_088f_085d_085a_07d0_0831_088d_085b_0859_0851_07d0_0845_0849_086d_0858_086e_084a_0861_0860_0862_07d0_0866_084b_07d0_07d0_07d0_07d0_0881_0894_08a6_08a7_07d0_07d0_07d0_089e_089f_08a0_08a1_07d0_07d0_07d0_0863_0837_084c_087d_0850_0857_0874_08a4_07d0_0879_083b_0893_087f_07d0_07d0_07d0_07d0_07d0_07d0_07d0_07d0_07d0_07d0_07d0_07d0_07d0_07d0_07d0_07d0_084d_07d0_082b_0833_0854_08a2_08a3_07d0_0873_0846_0895_07d0_086a_07d0_082c_07d0_07d0_07d0_07d0_07d0_07d0_0844_07d0_087a_07d0_0852_0838_0855_07d0_07d0_0880_085e_07d0_07d0_07d0_07d0_07d0_07d0_07d0_07d0_07d0_07d0_07d0_07d0_07d0_07d0_07d0_07d0_07d0_0828_07d0_07d0_07d0_07d0_07d0_07d0_07d0_07d0_0839_07d0_07d0_07d0_07d0_07d0_07d0_07d0_07d0_07d0_07d0_07d0_07d0_07d0_07d0_07d0_07d0_07d0_07d0_07d0_07d0_07d0_07d0_07d0_07d0_07d0_07d0_07d0_07d0_07d0_07d0_07d0_07d0_07d0_07d0_07d0_07d0_07d0_07d0_07d0_07d0_07d0_07d0_07d0_07d0_07d0_07d0_07d0_07d0_07d0_07d0_07d0_07d0_07d0_07d0_07d0_07d0_089b_07d0_07d0_07d0_0871_07d0_083c_07d0_0886_0848_07d0_0853_07d0_07d0_07d0_07d0_07d0_07d0_083e_07d0_0878_086b_0892_07d0_086c_0876_0856_088a_0872_0891_089c_089d_0888_089a_087b_0834_0865_082a_0870_0877_07d0_083d_07d0_08a8_08a9_08aa_08ab_08ac_08ad_08ae_07d0_07d0_07d0_07d0_082d_0887_0890_083a_087c_0830_088e_0883_0885_085c_084e_084f_087e_082e_082f_07d0_0875_0843_086f_0847_0842_0868_0884_085f_088b_088c_083f_08a5_0841_0840_0882_0835_0898_0899_0832_0836_0897_0864_0869_0867_0896_0889_088f_085d_085a_07d0_0831_088d_085b_0859_0851_07d0_0845_0849_086d_0858_086e_084a_0861_0860_0862_07d0_0866_084b_07d0_07d0_07d0_07d0_0881_0894_08a6_08a7_07d0_07d0_07d0_089e_089f_08a0_08a1_07d0_07d0_07d0_0863_0837_084c_087d_0850_0857_0874_08a4_07d0_0879_083b_0893_087f_07d0_07d0_07d0_07d0_07d0_07d0_07d0_07d0_07d0_07d0_07d0_07d0_07d0_07d0_07d0_07d0_084d_07d0_082b_0833_0854_08a2_08a3_07d0_0873_0846_0895_07d0_086a_07d0_082c_07d0_07d0_07d0_07d0_07d0_0e59_0844_07d0_087a_07d0_0852_0838_0855_07d0_07d0_0880_085e_07d0_07d0_07d0_07d0_07d0_07d0_07d0_07d0_07d0_07d0_07d0_07d0_07d0_07d0_07d0_07d0_07d0_0930_07d0_07d0_07d0_07d0_07d0_07d0_07d0_07d0_0839_07d0_07d0_07d0_07d0_07d0_07d0_07d0_07d0_07d0_07d0_07d0_07d0_07d0_07d0_07d0_07d0_07d0_07d0_07d0_07d0_07d0_07d0_07d0_07d0_07d0_07d0_07d0_07d0_07d0_07d0_07d0_07d0_07d0_07d0_07d0_07d0_07d0_07d0_07d0_07d0_07d0_07d0_07d0_07d0_07d0_07d0_07d0_07d0_07d0_07d0_07d0_07d0_07d0_07d0_07d0_07d0_089b_07d0_07d0_07d0_0871_07d0_083c_07d0_0886_0848_07d0_0853_07d0_07d0_0cd2_07d0_07d0_07d0_083e_07d0_0878_086b_0892_07d0_086c_0876_0856_088a_0872_0891_089c_089d_0888_089a_087b_0834_0865_082a_0870_0877_07d0_083d_07d0_08a8_08a9_08aa_08ab_08ac_08ad_08ae_07d0_07d0_07d0_07d0_082d_0887_0890_083a_087c_0830_088e_0883_0885_085c_084e_084f_087e_082e_082f_07d0_0875_0843_086f_0847_0842_0868_0884_085f_088b_088c_083f_08a5_0841_0840_0882_0835_0898_0899_0832_0836_0897_0864_0869_0867_0896_0889_088f_085d_085a_07d0_0831_088d_085b_0859_0851_07d0_0845_0849_086d_0858_086e_084a_0861_0860_0862_07d0_0866_084b_07d0_07d0_07d0_07d0_0881_0894_08a6_08a7_07d0_07d0_07d0_089e_089f_08a0_08a1_07d0_07d0_07d0_0863_0837_084c_087d_0850_0857_0874_08a4_07d0_0879_083b_0893_087f_07d0_07d0_07d0_07d0_07d0_07d0_07d0_07d0_07d0_07d0_07d0_07d0_07d0_07d0_07d0_07d0_084d_07d0_082b_0833_0854_08a2_08a3_07d0_0873_0846_0895_07d0_086a_07d0_082c_07d0_07d0_07d0_07d0_07d0_07d0_0844_07d0_087a_07d0_0852_0838_0855_07d0_07d0_0880_085e_07d0_07d0_07d0_07d0_07d0_07d0_07d0_07d0_07d0_07d0_07d0_07d0_07d0_07d0_0802_07d0_07d0_0828_07d0_07d0_07d0_07d0_07d0_07d0_07d0_07d0_0839_07d0_07d0_07d0_07d0_07d0_07d0_07d0_07d0_07d0_07d0_07d0_07d0_07d0_07d0_07d0_07d0_07d0_07d0_07d0_07d0_07d0_07d0_07d0_07d0_07d0_07d0_07d0_07d0_07d0_07d0_07d0_07d0_07d0_07d0_07d0_07d0_07d0_07d0_07d0_07d0_07d0_07d0_07d0_07d0_07d0_07d0_07d0_07d0_07d0_07d0_07d0_07d0_07d0_07d0_07d0_07d0_089b_07d0_07d0_07d0_0871_07d0_083c_07d0_0886_0848_07d0_0853_07d0_07d0_07d0_07d0_07d0_07d0_083e_07d0_0878_086b_0892_07d0_086c_0876_0856_088a_0872_0891_089c_089d_0888_089a_087b_0834_0865_082a_0870_0877_07d0_083d_07d0_08a8_08a9_08aa_08ab_08ac_08ad_08ae_07d0_07d0_07d0_07d0_082d_0887_0890_083a_087c_0830_088e_0883_0885_085c_084e_084f_087e_082e_082f_07d0_0875_0843_086f_0847_0842_0868_0884_085f_088b_088c_083f_08a5_0841_0840_0882_0835_0898_0899_0832_0836_0897_0864_0869_0867_0896_0889_088f_085d_085a_07d0_0831_088d_085b_0859_0851_07d0_0845_0849_086d_0858_086e_084a_0861_0860_0862_07d0_0866_084b_07d0_07d0_07d0_07d0_0881_0894_08a6_08a7_07d0_07d0_07d0_089e_089f_08a0_08a1_07d0_07d0_07d0_0863_0837_084c_087d_0850_0857_0874_08a4_07d0_0879_083b_0893_087f_07d0_07d0_07d0_07d0_07d0_07d0_07d0_07d0_07d0_07d0_07d0_07d0_07d0_07d0_07d0_07d0_084d_07d0_082b_0833_0854_08a2_08a3_07d0_0873_0846_0895_07d0_086a_07d0_082c_07d0_07d0_07d0_07d0_07d0_07d0_0844_07d0_087a_07d0_0852_0838_0855_07d0_07d0_0880_085e_07d0_07d0_07d0_07d0_07d0_07d0_07d0_07d0_07d0_07d0_07d0_07d0_07d0_07d0_07d0_07d0_07d0_0828_07d0_0a5b_07d0_07d0_07d0_07d0_07d0_07d0_0839_07d0_07d0_07d0_07d0_07d0_07d0_07d0_07d0_07d0_07d0_07d0_07d0_07d0_07d0_07d0_07d0_07d0_07d0_07d0_07d0_07d0_07d0_07d0_07d0_07d0_07d0_07d0_07d0_07d0_07d0_07d0_07d0_07d0_07d0_07d0_07d0_07d0_07d0_07d0_07d0_07d0_07d0_07d0_07d0_07d0_07d0_07d0_07d0_07d0_07d0_07d0_07d0_07d0_07d0_07d0_07d0_089b_07d0_07d0_07d0_0871_07d0_083c_07d0_0886_0848_07d0_0853_07d0_07d0_07d0_07d0_07d0_07d0_083e_07d0_0878_086b_0892_07d0_086c_0876_0856_088a_0872_0891_089c_089d_0888_089a_087b_0834_0865_082a_0870_0877_07d0_083d_07d0_08a8_08a9_08aa_08ab_08ac_08ad_08ae_07d0_07d0_07d0_07d0_082d_0887_0890_083a_087c_0830_088e_0883_0885_085c_084e_084f_087e_082e_082f_07d0_0875_0843_086f_0847_0842_0868_0884_085f_088b_088c_083f_08a5_0841_0840_0882_0835_0898_0899_0832_0836_0897_0864_0869_0867_0896_0889_088f_085d_085a_07d0_0831_088d_085b_0859_0851_07d0_0845_0849_086d_0858_086e_084a_0861_0860_0862_07d0_0866_084b_07d0_07d0_07d0_07d0_0881_0894_08a6_08a7_07d0_07d0_07d0_089e_089f_08a0_08a1_07d0_07d0_07d0_0863_0837_084c_087d_0850_0857_0874_08a4_07d0_0879_083b_0893_087f_07d0_07d0_07d0_07d0_07d0_07d0_07d0_07d0_07d0_07d0_07d0_07d0_07d0_07d0_07d0_07d0_084d_07d0_082b_0833_0854_08a2_08a3_07d0_0873_0846_0895_07d0_086a_07d0_082c_07d0_07d0_07d0_07d0_07d0_07d0_0844_07d0_087a_07d0_0852_0838_0855_07d0_07d0_0880_085e_07d0_07d0_07d0_07d0_07d0_07d0_07d0_07d0_07d0_07d0_07d0_07d0_07d0_07d0_07d0_07d0_07d0_0930_07d0_09e6_07d0_07d0_07d0_07d0_07d0_07d0_0839_07d0_07d0_07d0_07d0_07d0_07d0_07d0_07d0_07d0_07d0_07d0_07d0_07d0_07d0_07d0_07d0_07d0_07d0_07d0_07d0_07d0_07d0_07d0_07d0_07d0_07d0_07d0_07d0_07d0_07d0_07d0_07d0_07d0_07d0_07d0_07d0_07d0_07d0_07d0_07d0_07d0_07d0_07d0_07d0_07d0_07d0_07d0_07d0_07d0_07d0_07d0_07d0_07d0_07d0_07d0_07d0_089b_07d0_07d0_07d0_0871_07d0_083c_07d0_0886_0848_07d0_0853_07d0_07d0_07d0_07d0_07d0_07d0_083e_07d0_0878_086b_0892_07d0_086c_0876_0856_088a_0872_0891_089c_089d_0888_089a_087b_0834_0865_082a_0870_0877_07d0_083d_07d0_08a8_08a9_08aa_08ab_08ac_08ad_08ae_07d0_07d0_07d0_07d0_082d_0887_0890_083a_087c_0830_088e_0883_0885_085c_084e_084f_087e_082e_082f_07d0_0875_0843_086f_0847_0842_0868_0884_085f_088b_088c_083f_08a5_0841_0840_0882_0835_0898_0899_0832_0836_0897_0864_0869_0867_0896_0889_088f_085d_085a_07d0_0831_088d_085b_0859_0851_07d0_0845_0849_086d_0858_086e_084a_0861_0860_0862_07d0_0866_084b_07d0_07d0_07d0_07d0_0881_0894_08a6_08a7_07d0_07d0_07d0_089e_089f_08a0_08a1_07d0_07d0_07d0_0863_0837_084c_087d_0850_0857_0874_08a4_07d0_0879_083b_0893_087f_07d0_07d0_07d0_07d0_07d0_07d0_07d0_07d0_07d0_07d0_07d0_07d0_07d0_07d0_07d0_07d0_084d_07d0_082b_0833_0854_08a2_08a3_07d0_0873_0846_0895_07d0_086a_07d0_082c_07d0_07d0_07d0_07d0_07d0_07d0_0844_07d0_087a_07d0_0852_0838_0855_07d0_07d0_0880_085e_07d0_07d0_07d0_07d0_07d0_07d0_07d0_07d0_07d0_07d0_07d0_07d0_07d0_07d0_07d0_07d0_07d0_0828_07d0_07d0_07d0_07d0_07d0_07d0_07d0_07d0_0839_07d0_07d0_07d0_07d0_07d0_07d0_07d0_07d0_07d0_07d0_07d0_07d0_07d0_07d0_07d0_07d0_07d0_07d0_07d0_07d0_07d0_07d0_07d0_07d0_07d0_07d0_07d0_07d0_07d0_07d0_07d0_07d0_07d0_07d0_07d0_07d0_07d0_07d0_07d0_07d0_07d0_07d0_07d0_07d0_07d0_07d0_07d0_07d0_07d0_07d0_07d0_07d0_07d0_07d0_07d0_07d0_089b_07d0_07d0_07d0_0871_07d0_083c_07d0_0886_0848_07d0_0853_07d0_07d0_07d0_07d0_07d0_07d0_083e_07d0_0878_086b_0892_07d0_086c_0876_0856_088a_0872_0891_089c_089d_0888_089a_087b_0834_0865_082a_0870_0877_07d0_083d_07d0_08a8_08a9_08aa_08ab_08ac_08ad_08ae_07d0_07d0_07d0_07d0_082d_0887_0890_083a_087c_0830_088e_0883_0885_085c_084e_084f_087e_082e_082f_07d0_0875_0843_086f_0847_0842_0868_0884_085f_088b_088c_083f_08a5_0841_0840_0882_0835_0898_0899_0832_0836_0897_0864_0869_0867_0896_0889_088f_085d_085a_07d0_0831_088d_085b_0859_0851_07d0_0845_0849_086d_0858_086e_084a_0861_0860_0862_07d0_0866_084b_07d0_07d0_07d0_07d0_0881_0894_08a6_08a7_07d0_07d0_07d0_089e_089f_08a0_08a1_07d0_07d0_07d0_0863_0837_084c_087d_0850_0857_0874_08a4_0ab5_0879_083b_0893_087f_07d0_07d0_07d0_07d0_07d0_07d0_07d0_07d0_07d0_07d0_07d0_07d0_07d0_07d0_07d0_07d0_084d_07d0_082b_0833_0854_08a2_08a3_07d0_0873_0846_0895_07d0_086a_07d0_082c_07d0_07d0_07d0_07d0_07d0_0a43_0844_07d0_087a_07d0_0852_0838_0855_07d0_07d0_0880_085e_07d0_07d0_07d0_07d0_07d0_07d0_07d0_07d0_07d0_07d0_07d0_07d0_07d0_07d0_07d0_07d0_07d0_0828_07d0_07d0_07d0_07d0_07d0_07d0_07d0_07d0_0839_07d0_07d0_07d0_07d0_07d0_07d0_07d0_07d0_07d0_07d0_07d0_07d0_07d0_07d0_07d0_07d0_07d0_07d0_07d0_07d0_07d0_07d0_07d0_07d0_07d0_07d0_07d0_07d0_07d0_07d0_07d0_07d0_07d0_07d0_07d0_07d0_07d0_07d0_07d0_07d0_07d0_07d0_07d0_07d0_07d0_07d0_07d0_07d0_07d0_07d0_07d0_07d0_07d0_07d0_07d0_07d0_089b_07d0_07d0_07d0_0871_07d0_083c_07d0_0886_0848_07d0_0853_07d0_07d0_07d0_07d0_07d0_07d0_083e_07d0_0878_086b_0892_07d0_086c_0876_0856_088a_0872_0891_089c_089d_0888_089a_087b_0834_0865_082a_0870_0877_07d0_083d_07d0_08a8_08a9_08aa_08ab_08ac_08ad_08ae_07d0_07d0_07d0_07d0_082d_0887_0890_083a_087c_0830_088e_0883_0885_085c_084e_084f_087e_082e_082f_07d0_0875_0843_086f_0847_0842_0868_0884_085f_088b_088c_083f_08a5_0841_0840_0882_0835_0898_0899_0832_0836_0897_0864_0869_0867_0896_0889_088f_085d_085a_07d0_0831_088d_085b_0859_0851_07d0_0845_0849_086d_0858_086e_084a_0861_0860_0862_07d0_0866_084b_07d0_07d0_07d0_07d0_0881_0894_08a6_08a7_07d0_07d0_07d0_089e_089f_08a0_08a1_07d0_07d0_07d0_0863_0837_084c_087d_0850_0857_0874_08a4_07d0_0879_083b_0893_087f_07d0_07d0_07d0_07d0_07d0_07d0_07d0_07d0_07d0_07d0_07d0_07d0_07d0_07d0_07d0_07d0_084d_07d0_082b_0833_0854_08a2_08a3_07d0_0873_0846_0895_0920_07d0_07d0_07d0_07d0_07d0_07d0_086a_07d0_082c_07d0_07d0_087a_07d0_07d0_0838_0844_07d0_07d0_07d0_0852_07d0_0855_07d0_07d0_0880_085e_07d0_07d0_07d0_07d0_07d0_07d0_07d0_07d0_07d0_07d0_07d0_07d0_07d0_07d0_07d0_07d0_07d0_0828_07d0_07d0_07d0_07d0_07d0_07d0_07d0_07d0_0839_07d0_07d0_07d0_07d0_07d0_07d0_07d0_07d0_07d0_07d0_07d0_07d0_07d0_07d0_07d0_07d0_07d0_07d0_07d0_07d0_07d0_07d0_07d0_07d0_07d0_07d0_07d0_07d0_07d0_07d0_07d0_07d0_07d0_07d0_07d0_07d0_07d0_07d0_07d0_07d0_07d0_07d0_07d0_07d0_07d0_07d0_07d0_07d0_07d0_07d0_07d0_07d0_07d0_07d0_07d0_07d0_089b_07d0_07d0_07d0_0871_07d0_083c_07d0_0886_0848_07d0_0853_07d0_07d0_07d0_07d0_07d0_07d0_083e_07d0_0878_086b_0892_07d0_086c_0876_0856_088a_0872_0891_089c_089d_0888_089a_087b_0834_0865_082a_0870_0877_07d0_083d_07d0_08a8_08a9_08aa_08ab_08ac_08ad_08ae_07d0_07d0_07d0_07d0_082d_0887_0890_083a_087c_0830_088e_0883_0885_085c_084e_084f_087e_082e_082f_07d0_0875_0843_086f_0847_0842_0868_0884_085f_088b_088c_083f_08a5_0841_0840_0882_0835_0898_0899_0832_0836_0897_0864_0869_0867_0896_0889_088f_085d_085a_07d0_0831_088d_085b_0859_0851_07d0_0845_0849_086d_0858_086e_084a_0861_0860_0862_07d0_0866_084b_07d0_07d0_07d0_07d0_0881_0894_08a6_08a7_07d0_07d0_07d0_089e_089f_08a0_08a1_07d0_07d0_07d0_0863_0837_084c_087d_0850_0857_0874_08a4_07d0_0879_083b_0893_087f_07d0_07d0_07d0_07d0_07d0_07d0_07d0_07d0_07d0_07d0_07d0_07d0_07d0_07d0_07d0_07d0_084d_07d0_082b_0833_0854_08a2_08a3_07d0_0873_0846_0895_07d0_086a_07d0_082c_07d0_07d0_07d0_07d0_07d0_07d0_0844_07d0_087a_07d0_0852_0838_0855_07d0_07d0_0880_085e_07d0_07d0_07d0_07d0_07d0_07d0_07d0_07d0_07d0_07d0_07d0_07d0_07d0_07d0_07d0_07d0_07d0_0828_07d0_07d0_07d0_07d0_07d0_07d0_07d0_07d0_0839_07d0_07d0_07d0_07d0_07d0_07d0_07d0_07d0_07d0_07d0_07d0_07d0_07d0_07d0_07d0_07d0_07d0_07d0_07d0_07d0_07d0_07d0_07d0_07d0_07d0_07d0_07d0_07d0_07d0_07d0_07d0_07d0_07d0_07d0_07d0_07d0_07d0_07d0_07d0_07d0_07d0_07d0_07d0_07d0_07d0_07d0_07d0_07d0_07d0_07d0_07d0_07d0_07d0_07d0_0825_07d0_089b_07d0_07d0_07d0_0871_07d0_083c_07d0_0886_0848_07d0_0853_07d0_07d0_07d0_07d0_07d0_07d0_083e_07d0_0878_086b_0892_07d0_086c_0876_0856_088a_0872_0891_089c_089d_0888_089a_087b_0834_0865_082a_0870_0877_07d0_083d_07d0_08a8_08a9_08aa_08ab_08ac_08ad_08ae_07d0_07d0_07d0_07d0_082d_0887_0890_083a_087c_0830_088e_0883_0885_085c_084e_084f_087e_082e_082f_07d0_0875_0843_086f_0847_0842_0868_0884_085f_088b_088c_083f_08a5_0841_0840_0882_0835_0898_0899_0832_0836_0897_0864_0869_0867_0896_0889_088f_085d_085a_07d0_0831_088d_085b_0859_0851_07d0_0845_0849_086d_0858_086e_084a_0861_0860_0862_07d0_0866_084b_07d0_07d0_07d0_07d0_0881_0894_08a6_08a7_07d0_07d0_07d0_089e_089f_08a0_08a1_07d0_07d0_07d0_0863_0837_084c_087d_0850_0857_0874_08a4_07d0_0879_083b_0893_087f_07d0_07d0_07d0_07d0_07d0_07d0_07d0_07d0_07d0_07d0_07d0_07d0_07d0_07d0_07d0_07d0_084d_07d0_082b_0833_0854_08a2_08a3_07d0_0873_0846_0895_07d0_086a_07d0_082c_07d0_07d0_07d0_07d0_07d0_07d0_0844_07d0_087a_07d0_0852_0838_0855_07d0_07d0_0880_085e_07d0_07d0_07d0_07d0_07d0_07d0_07d0_07d0_07d0_07d0_07d0_07d0_07d0_07d0_07d0_07d0_07d0_0930_07d0_07d0_07d0_07d0_07d0_07d0_07d0_07d0_0839_07d0_07d0_07d0_07d0_07d0_07d0_07d0_07d0_07d0_07d0_07d0_07d0_07d0_07d0_07d0_07d0_07d0_07d0_07d0_07d0_07d0_07d0_07d0_07d0_07d0_07d0_07d0_07d0_07d0_07d0_07d0_07d0_07d0_07d0_07d0_07d0_07d0_07d0_07d0_07d0_07d0_07d0_07d0_07d0_07d0_07d0_07d0_07d0_07d0_07d0_07d0_07d0_07d0_07d0_07d0_07d0_089b_07d0_07d0_07d0_0871_07d0_083c_07d0_0886_0848_07d0_0853_07d0_07d0_07d0_07d0_07d0_07d0_083e_07d0_0878_086b_0892_07d0_086c_0876_0856_088a_0872_0891_089c_089d_0888_089a_087b_0834_0865_082a_0870_0877_07d0_083d_07d0_08a8_08a9_08aa_08ab_08ac_08ad_08ae_07d0_07d0_07d0_07d0_082d_0887_0890_083a_087c_0830_088e_0883_0885_085c_084e_084f_087e_082e_082f_07d0_0875_0843_086f_0847_0842_0868_0884_085f_088b_088c_083f_08a5_0841_0840_0882_0835_0898_0899_0832_0836_0897_0864_0869_0867_0896_0889_088f_085d_085a_07d0_0831_088d_085b_0859_0851_07d0_0845_0849_086d_0858_086e_084a_0861_0860_0862_07d0_0866_084b_07d0_07d0_07d0_07d0_0881_0894_08a6_08a7_07d0_07d0_07d0_089e_089f_08a0_08a1_07d0_07d0_07d0_0863_0837_084c_087d_0850_0857_0874_08a4_07d0_0879_083b_0893_087f_07d0_07d0_07d0_07d0_07d0_07d0_07d0_07d0_07d0_07d0_07d0_07d0_07d0_07d0_07d0_07d0_084d_07d0_082b_0833_0854_08a2_08a3_07d0_0873_0846_0895_07d0_086a_07d0_082c_07d0_07d0_07d0_07d0_07d0_07d0_0844_07d0_087a_07d0_0852_0838_0855_07d0_07d0_0880_085e_07d0_07d0_07d0_07d0_07d0_07d0_07d0_07d0_07d0_07d0_07d0_07d0_07d0_07d0_07d0_07d0_07d0_0828_07d0_07d0_07d0_07d0_07d0_07d0_07d0_07d0_0839_07d0_07d0_07d0_07d0_07d0_07d0_07d0_07d0_07d0_07d0_07d0_07d0_07d0_07d0_07d0_07d0_07d0_07d0_07d0_07d0_07d0_07d0_07d0_07d0_07d0_07d0_07d0_07d0_07d0_07d0_07d0_07d0_07d0_07d0_07d0_07d0_07d0_07d0_07d0_07d0_07d0_07d0_07d0_07d0_07d0_07d0_07d0_07d0_07d0_07d0_07d0_07d0_07d0_07d0_07d0_07d0_089b_07d0_07d0_07d0_0871_07d0_083c_07d0_0886_0848_07d0_0853_07d0_07d0_07d0_07d0_07d0_07d0_083e_07d0_0878_086b_0892_07d0_086c_0876_0856_088a_0872_0891_089c_089d_0888_089a_087b_0834_0865_082a_0870_0877_07d0_083d_07d0_08a8_08a9_08aa_08ab_08ac_08ad_08ae_07d0_07d0_07d0_07d0_082d_0887_0890_083a_087c_0830_088e_0883_0885_085c_084e_084f_087e_082e_082f_07d0_0875_0843_086f_0847_0842_0868_0884_085f_088b_088c_083f_08a5_0841_0840_0882_0835_0898_0899_0832_0836_0897_0864_0869_0867_0896_0889_088f_085d_085a_07d0_0831_088d_085b_0859_0851_07d0_0845_0849_086d_0858_086e_084a_0861_0860_0862_07d0_0866_084b_07d0_07d0_07d0_07d0_0881_0894_08a6_08a7_07d0_07d0_07d0_089e_089f_08a0_08a1_07d0_07d0_07d0_0863_0837_084c_087d_0850_0857_0874_08a4_07d0_0879_083b_0893_087f_07d0_07d0_07d0_07d0_07d0_07d0_07d0_07d0_07d0_07d0_07d0_07d0_07d0_07d0_07d0_07d0_084d_07d0_082b_0833_0854_08a2_08a3_07d0_0873_0846_0895_07d0_086a_07d0_082c_07d0_07d0_07d0_07d0_07d0_07d0_0844_07d0_087a_07d0_0852_0838_0855_07d0_07d0_0880_085e_07d0_07d0_07d0_07d0_07d0_07d0_07d0_07d0_07d0_07d0_07d0_07d0_07d0_07d0_07d0_07d0_07d0_08e0_07d0_07d0_07d0_07d0_07d0_07d0_07d0_07d0_0839_07d0_07d0_07d0_07d0_07d0_07d0_07d0_07d0_07d0_07d0_07d0_07d0_07d0_07d0_07d0_07d0_07d0_07d0_07d0_07d0_07d0_07d0_07d0_07d0_07d0_07d0_07d0_07d0_07d0_07d0_07d0_07d0_07d0_07d0_07d0_07d0_07d0_07d0_07d0_07d0_07d0_07d0_07d0_07d0_07d0_07d0_07d0_07d0_07d0_07d0_07d0_07d0_07d0_07d0_07d0_07d0_089b_07d0_07d0_07d0_0871_07d0_083c_07d0_0886_0848_07d0_0853_07d0_07d0_07d0_07d0_07d0_07d0_083e_07d0_0878_086b_0892_07d0_086c_0876_0856_088a_0872_0891_089c_089d_0888_089a_087b_0834_0865_082a_0870_0877_07d0_083d_07d0_08a8_08a9_08aa_08ab_08ac_08ad_08ae_07d0_07d0_07d0_07d0_082d_0887_0890_083a_087c_0830_088e_0883_0885_085c_084e_084f_087e_082e_082f_07d0_0875_0843_086f_0847_0842_0868_0884_085f_088b_088c_083f_08a5_0841_0840_0882_0835_0898_0899_0832_0836_0897_0864_0869_0867_0896_0889_088f_085d_085a_07d0_0831_088d_085b_0859_0851_07d0_0845_0849_086d_0858_086e_084a_0861_0860_0862_07d0_0866_084b_07d0_07d0_07d0_07d0_0881_0894_08a6_08a7_07d0_07d0_07d0_089e_089f_08a0_08a1_07d0_07d0_07d0_0863_0837_084c_087d_0850_0857_0874_08a4_07d0_0879_083b_0893_087f_07d0_07d0_07d0_07d0_07d0_07d0_07d0_07d0_07d0_07d0_07d0_07d0_07d0_07d0_07d0_07d0_084d_07d0_082b_0833_0854_08a2_08a3_07d0_0873_0846_0895_07d0_07d0_07d0_07d0_07d0_07d0_07d0_07d0_07d0_07d0_07d0_07d0_087a_07d0_07d0_0838
@[inherit_doc bitsAct] def yyAct : Table := ⟨bitsAct, 14695⟩

/-- Models /repo/sqlparser/parser.go 2264-2436, `yyPact` (1702 entries). -/
def bitsPact : Nat := nat_lit 0x10cb_03e8_0704_03e8_03e8_03e8_03e8_03e8_03e8_03e8_03e8_03e8_03e8_03e8_03e8_03e8_03e8_03e8_03e8_03e8_03e8_0cc8_0cf3_03e8_03e8_03e8_03e8_03e8_03e8_0c33_09e1_0903_092a_0893_3cb6_0924_100b_3ee6_03e8_082c_03e8_03e8_03e8_03e8_03e8_03e8_03e8_0bfe_03e8_03e8_03e8_03e8_03e8_0cbb_0cc6_0c08_0ca9_0c72_03e8_2478_08d6_3620_3b9e_1ff6_03e8_0b40_0715_08f8_3dce_08d4_08d4_3dce_3dce_08d4_03e8_0769_090b_3ee6_03e8_3ee6_08c1_0b3a_08c1_08c1_08c1_3ee6_03e8_095c_03e8_03e8_03e8_03e8_03e8_03e8_03e8_03e8_03e8_03e8_03e8_03e8_03e8_03e8_03e8_03e8_03e8_03e8_03e8_03e8_03e8_03e8_03e8_03e8_03e8_03e8_03e8_03e8_03e8_03e8_03e8_03e8_03e8_03e8_03e8_03e8_03e8_03e8_03e8_03e8_03e8_03e8_03e8_03e8_03e8_03e8_03e8_03e8_03e8_03e8_03e8_03e8_03e8_03e8_03e8_03e8_03e8_03e8_03e8_03e8_03e8_03e8_03e8_03e8_03e8_03e8_03e8_03e8_03e8_03e8_03e8_03e8_03e8_03e8_03e8_03e8_03e8_03e8_03e8_03e8_03e8_03e8_03e8_03e8_03e8_03e8_03e8_03e8_03e8_03e8_03e8_03e8_03e8_03e8_03e8_03e8_03e8_03e8_03e8_03e8_03e8_03e8_03e8_03e8_03e8_03e8_03e8_03e8_03e8_03e8_03e8_03e8_03e8_03e8_03e8_03e8_03e8_03e8_03e8_03e8_03e8_03e8_03e8_03e8_03e8_03e8_03e8_03e8_03e8_03e8_03e8_03e8_03e8_03e8_03e8_3ee6_0b2f_0c8f_08b7_178a_178a_178a_178a_0867_178a_078f_0c3f_03e8_03e8_03e8_03e8_178a_03e8_03e8_03e8_03e8_03e8_03e8_03e8_03e8_03e8_03e8_0add_0c91_26b6_26b6_0cc8_03e8_0bfe_03e8_03e8_03e8_0c88_03e8_03e8_0a03_0cdb_03e8_2b22_0958_03e8_26b6_0843_0b92_03e8_03e8_0b92_03e8_03e8_0947_03e8_03e8_28ec_28ec_28ec_28ec_28ec_28ec_28ec_03e8_03e8_03e8_03e8_03e8_03e8_03e8_03e8_03e8_03e8_03e8_03e8_03e8_03e8_0b92_03e8_2597_0b92_0b92_0b92_0b92_0b92_0b92_0b92_0b92_26b6_0b92_0b92_0b92_0b92_0b92_0b92_0b92_0b92_0b92_0f3a_0b92_0b92_0b92_0b92_3a80_0b9b_0c5d_03e8_03e8_03e8_0ca6_2e78_31c0_3ee6_0b7b_03e8_0bd2_1ec2_0781_03e8_03e8_03e8_09c6_30a8_03e8_03e8_03e8_0c8a_03e8_03e8_03e8_03e8_03e8_03e8_03e8_03e8_03e8_03e8_03e8_03e8_03e8_03e8_03e8_03e8_03e8_03e8_03e8_03e8_03e8_03e8_03e8_03e8_03e8_03e8_03e8_03e8_03e8_03e8_03e8_03e8_03e8_03e8_03e8_03e8_03e8_03e8_03e8_03e8_03e8_03e8_03e8_03e8_03e8_03e8_03e8_03e8_03e8_03e8_03e8_03e8_03e8_03e8_03e8_03e8_03e8_03e8_03e8_03e8_03e8_03e8_03e8_03e8_03e8_03e8_03e8_03e8_03e8_03e8_03e8_03e8_03e8_03e8_03e8_03e8_03e8_03e8_03e8_03e8_03e8_03e8_03e8_03e8_03e8_03e8_03e8_03e8_03e8_03e8_03e8_03e8_03e8_03e8_03e8_03e8_03e8_03e8_03e8_03e8_03e8_03e8_03e8_03e8_03e8_03e8_03e8_03e8_03e8_03e8_0b6e_03e8_11ff_0922_03e8_03e8_3ee6_0be8_0b2d_09d7_0b29_0c3e_08ca_3ee6_03e8_3968_178a_08ff_3ee6_0c9e_0c3d_3ee6_0b1e_0b0c_03e8_1d8e_03e8_178a_178a_178a_178a_178a_178a_178a_178a_03e8_03e8_03e8_03e8_03e8_03e8_178a_178a_03e8_07ba_03e8_3ee6_03e8_03e8_03e8_03e8_0cee_0973_0aef_0957_0bd6_03e8_0aa1_0cbb_0add_0c72_2f90_0c4c_03e8_03e8_3ee6_03e8_26b6_26b6_0a4f_03e8_3850_03e8_03e8_18be_097f_28ec_0a58_09c9_28ec_28ec_28ec_28ec_28ec_28ec_28ec_28ec_28ec_28ec_28ec_28ec_28ec_28ec_28ec_0aa3_0f3a_03e8_03e8_03e8_03e8_03e8_03e8_03e8_03e8_0aec_03e8_0bfe_0bbb_0bbb_07db_07db_07db_07db_07db_07db_2a07_223a_0add_0b6c_0996_2597_2478_2478_26b6_26b6_3ffe_3ffe_2478_0cab_098d_0996_3ffe_03e8_0add_03e8_03e8_03e8_03e8_03e8_03e8_03e8_03e8_03e8_07ee_03e8_03e8_03e8_03e8_03e8_03e8_03e8_03e8_03e8_03e8_03e8_03e8_03e8_03e8_03e8_03e8_03e8_2478_2478_2478_2478_0882_3ee6_03e8_3ffe_3620_3620_3620_3620_3620_03e8_0c53_0c51_03e8_0c67_0c50_0c57_3ee6_03e8_0b69_2e78_0909_0b92_03e8_3738_03e8_03e8_0882_0bd7_3620_3ee6_03e8_03e8_1c5a_0bd2_0781_0bb6_03e8_0786_07a2_211b_0961_03e8_03e8_03e8_03e8_1522_0a97_0e9e_074f_07c7_03e8_03e8_03e8_03e8_0bfc_03e8_0bfc_08a8_0bfc_0bfc_0bfc_03e8_0bfc_0bfc_07ea_07ea_07ea_07ea_07ea_03e8_03e8_03e8_03e8_03e8_03e8_03e8_0c31_0c2b_03e8_0bfc_0bfc_0bfc_03e8_0bfc_03e8_03e8_03e8_03e8_03e8_03e8_03e8_03e8_03e8_03e8_0c1b_08b1_0c1b_0bff_0bff_03e8_03e8_3dce_0ca4_0751_0ae4_178a_0c96_178a_3ee6_0cd6_3ee6_03e8_03e8_03e8_0ebc_3ee6_03e8_3ee6_03e8_03e8_3ee6_178a_03e8_03e8_03e8_03e8_03e8_03e8_03e8_03e8_03e8_03e8_03e8_03e8_03e8_03e8_03e8_09c3_03e8_03e8_03e8_03e8_0c77_26b6_26b6_1b26_26b6_03e8_03e8_03e8_0c91_03e8_0cab_0cc2_03e8_0c81_0c80_2478_03e8_03e8_097f_0989_03e8_03e8_0a80_03e8_03e8_03e8_03e8_0956_0b92_03e8_0933_03e8_03e8_03e8_03e8_0a58_28ec_28ec_28ec_0e43_0933_0e63_0807_09d3_07db_087d_087d_07d6_07d6_07d6_07d6_07d6_0871_0871_03e8_03e8_03e8_03e8_0add_03e8_03e8_03e8_0add_2478_0bb7_03e8_03e8_26b6_03e8_0add_0b67_0b67_0aa8_0a17_0bce_03e8_0954_0bcc_0b67_2478_09de_03e8_26b6_0add_03e8_03e8_0b67_0add_0b67_0b67_0be2_0b92_03e8_0bc9_03e8_09c5_0c5d_0c2f_0c3c_0b91_03e8_03e8_03e8_03e8_0c4f_03e8_0c3b_03e8_03e8_03e8_03e8_03e8_090d_0907_0905_3dce_03e8_0cd0_3620_0ba3_03e8_03e8_0bb6_0781_077a_03e8_03e8_03e8_03e8_0996_03e8_03e8_0ac3_0bb0_13db_03e8_03e8_03e8_03e8_03e8_03e8_03e8_03e8_0c2a_0a4c_3dce_08a3_089f_0969_094a_0ac0_03e8_03e8_03e8_0a13_03e8_3dce_0ce7_03e8_03e8_089c_03e8_089b_09d6_0ab8_3ee6_0851_0c1d_0f97_03e8_06ff_03e8_07c3_03e8_03e8_0a8e_07ea_07ea_0bfc_07ea_07ea_07ea_03e8_03e8_0961_0c89_0961_0961_0961_0961_0ab3_0ab3_074e_074e_03e8_03e8_03e8_0a8c_0c1b_03e8_03e8_03e8_0a73_03e8_0c28_0bfe_03e8_19f2_03e8_03e8_03e8_03e8_03e8_0ca3_0c3a_03e8_03e8_03e8_083e_03e8_0abf_0fd6_0993_03e8_03e8_03e8_03e8_03e8_03e8_03e8_03e8_03e8_03e8_03e8_0880_092e_03e8_178a_03e8_09cc_3ee6_3ee6_0c75_0996_0996_094b_03e8_03e8_3ee6_03e8_03e8_03e8_03e8_0bc4_03e8_03e8_03e8_1656_2478_03e8_0e43_0933_0be7_03e8_28ec_28ec_03e8_03e8_0b67_2478_0996_03e8_03e8_03e8_0a91_0aa3_0a91_28ec_28ec_1b26_28ec_28ec_0758_0ba6_09ca_03e8_26b6_0a42_03e8_03e8_03e8_03e8_03e8_0c39_3ffe_0b92_03e8_2d59_3dce_0cc8_3ffe_26b6_26b6_03e8_03e8_26b6_0c1a_03e8_26b6_03e8_03e8_03e8_0b92_0b92_0b92_0b44_03e8_0cc8_0ba3_03e8_03e8_03e8_0783_0777_03e8_03e8_1522_03e8_1522_3508_03e8_0cd8_0cb8_08a6_08be_03e8_0abe_0abd_03e8_0abb_03e8_07c4_03e8_0717_0826_07a1_03e8_03e8_0b92_03e8_0c0b_0ca2_03e8_0c92_0a6b_03e8_0f11_070a_03e8_03e8_03e8_03e8_03e8_03e8_0b92_0c05_0c03_03e8_0c02_03e8_03e8_03e8_0b6f_0961_0961_07ea_0961_0961_0961_03e8_099c_03e8_03e8_03e8_03e8_0b64_03e8_0b5c_03e8_0806_07f8_03e8_0baf_03e8_0b4c_3ee6_3dce_03e8_0ba1_03e8_09c0_0cb7_085a_3ee6_0cd6_03e8_089d_03e8_3dce_03e8_03e8_03e8_03e8_03e8_03e8_03e8_03e8_3dce_03e8_03e8_03e8_03e8_03e8_03e8_03e8_03e8_03e8_03e8_03e8_3ee6_03e8_03e8_03e8_03e8_03e8_3dce_08b5_03e8_03e8_0aab_26b6_03e8_03e8_03e8_19f2_03e8_0cd0_3620_03e8_03e8_0add_03e8_28ec_0933_0933_03e8_03e8_0add_0bfc_0bfc_03e8_0bfc_0bff_03e8_03e8_0bfc_081e_0bfc_0814_0add_0add_08f7_0ace_03e8_08e5_0866_0b92_075e_03e8_0996_26b6_03e8_0c97_0b62_0b90_03e8_03e8_2359_0add_0b48_0942_0b44_0cbb_03e8_0996_0996_0996_32d8_0996_32d8_32d8_32d8_2c3a_3dce_0cbb_03e8_03e8_03e8_03e8_13db_03e8_0b3f_03e8_0bfc_0bfc_090a_090a_0711_0897_0895_03e8_03e8_03e8_03e8_0715_03e8_03e8_09d6_03e8_26b6_32d8_0723_03e8_0b9e_0b59_08c4_03e8_0860_0add_03e8_0aac_03e8_0a8f_0b49_03e8_03e8_03e8_0961_03e8_03e8_03e8_03e8_03e8_07ea_0aaa_07ea_07b8_07b7_0a60_03e8_0a5e_0baa_0c38_19f2_1522_08f4_0d19_03e8_03e8_0cae_0ca1_3dce_03e8_03e8_03e8_0bf9_03e8_03e8_03e8_03e8_0c8b_3dce_03e8_03e8_0996_0ccd_0b98_03e8_0933_03e8_03e8_08a2_03e8_03e8_03e8_03e8_03e8_03e8_03e8_03e8_03e8_28ec_28ec_03e8_28ec_28ec_28ec_0add_0a9e_0996_0892_03e8_0b92_03e8_03e8_0bae_3dce_3dce_03e8_03e8_0b39_03e8_03e8_0b35_0b35_0b35_0909_03e8_03e8_0de2_3508_0c9b_03e8_0a29_03e8_03e8_09d9_084e_0a20_03e8_3dce_0715_03e8_0b92_0a1b_0b33_0bf8_0a5b_03e8_0b45_07ed_074e_03e8_03e8_03e8_03e8_03e8_03e8_03e8_0961_03e8_0961_03e8_03e8_0b36_0b05_3508_3dce_3ee6_03e8_03e8_3dce_03e8_03e8_03e8_03e8_03e8_083b_0888_0bf6_32d8_0b92_08b8_0ccb_0cc1_03e8_03e8_0906_0906_0906_0906_07fa_03e8_03e8_0ce4_03e8_0b92_03e8_0bfe_093f_03e8_3dce_03e8_03e8_03e8_03e8_03e8_0c36_0ebd_0848_03e8_0aae_09be_0a4d_09b8_09a3_099e_0994_0992_098a_0987_03e8_03e8_03e8_0ce2_03e8_03e8_03e8_0cde_0bf5_03e8_0bf3_26b6_0852_03e8_03e8_0af2_0aeb_03e8_03e8_03e8_03e8_03e8_03e8_0b28_0bf0_0be9_0b73_03e8_0839_0888_03e8_03e8_03e8_03e8_3508_0b26_087f_088f_03e8_26b6_26b6_03e8_03e8_03e8_03e8_0add_084f_072d_3ffe_0b90_0add_3dce_03e8_03e8_3dce_03e8_074a_0ebd_3dce_03e8_0a53_03e8_03e8_0a09_0a47_0a09_0a09_0a09_0a09_0a09_090a_090a_3dce_3508_0a1b_03e8_075c_0bd0_03e8_03e8_070f_3508_3508_0752_3dce_26b6_0888_03e8_0b1c_0be8_0b19_03e8_3dce_0be4_0996_0b82_03e8_0c6e_0755_0729_0b7d_03e8_03e8_0b92_0b17_03e8_03e8_03e8_03e8_03e8_03e8_03e8_03e8_03e8_03e8_03e8_03e8_09d6_09d6_0b04_0af1_03e8_03e8_03e8_083c_0a96_0a3f_0a3a_0a39_07bd_03e8_0cbf_0cd0_0be1_0aea_0adc_03e8_0708_03e8_0996_03e8_03e8_0751_03e8_087f_0c7e_3508_03e8_0c5e_03e8_3dce_03e8_0ebd_03e8_03e8_08b3_0de2_0a22_03e8_0a1a_03e8_03e8_03e8_03e8_03e8_03e8_03e8_33f0_0de2_32d8_0cd0_0de2_26b6_03e8_03e8_0868_0ad1_0750_0add_03e8_3ee6_0c36_03e8_03e8_03e8_093d_0c36_0acf_0de2_03e8_0996_087a_03e8_072b_03e8_0bdb_03e8_19f2_03e8_03e8_03e8_0b92_0728_3dce_03e8_27d1_03e8_0acd_0906_0add_03e8_03e8_03e8
@[inherit_doc bitsPact] def yyPact : Table := ⟨bitsPact, 1702⟩

/-- Models /repo/sqlparser/parser.go 2438-2461, `yyPgo` (214 entries). -/
def bitsPgo : Nat := nat_lit 0x07d0_0dfc_07e3_0b00_0dfb_0dfa_0df5_0d1b_0d08_0d02_0ded_0de9_0de6_0de4_0de2_0de1_0de0_0dde_0ddd_0dd9_0dd6_0dd4_0dd3_0dd2_09cf_0dd1_0dd0_0dcf_0828_0dcd_0830_0dca_0dc7_0804_0843_0805_0802_0806_0dc6_07f0_0847_0829_0dc3_080c_0dc1_0dc0_0832_0dbf_0825_0dbd_0dbc_082f_0dbb_0dac_07eb_07d3_0d9f_07ef_0d9d_0d9c_082b_07d7_0d9b_0d98_0d97_0d96_0d94_0d93_081b_07dd_07e1_07e9_07ed_0d92_0824_07f5_0d91_0812_0d90_0d8f_0d8d_0d8b_0803_0d8a_081d_07e8_07fd_081c_0d89_07de_0d88_0823_07fb_07f7_07d9_0831_0822_0d85_07fe_082a_0814_0d84_0d82_0a43_0d80_0d7f_0d7e_0d7d_0d7c_0d7b_0a28_0a25_0d7a_0d78_0d77_0808_07d0_099e_07da_0838_0d76_080a_0d75_0f1a_082d_0821_07f2_0d73_0807_0d95_07ff_0d72_0d6a_0809_082c_0d68_0839_0837_0d67_0d65_0d64_0d62_0d5f_0827_07f8_0816_089a_0d5d_0d55_0d54_07e5_080d_07fa_0811_081f_0d53_0d50_0d4f_07f4_0d4d_07e0_07ee_07d2_0817_0d4a_0d49_0d48_0d46_07f9_07f1_0d45_07ea_07e6_07e2_07d6_07d4_0d44_0d43_0d41_07d1_0d3f_07ec_0d3e_07d5_0d3d_07d8_0d3c_0d38_0d37_0d33_0d2f_0d2e_0d2c_0d2b_0d28_0d27_07e7_07dc_0800_0801_07db_080b_07fc_0d24_07df_0d1d_0d17_0c73_0ac7_0d0d_0d06_0cfc_0cfa_084b
@[inherit_doc bitsPgo] def yyPgo : Table := ⟨bitsPgo, 214⟩

/-- Models /repo/sqlparser/parser.go 2463-2564, `yyR1` (999 entries). -/
def bitsR1 : Nat := nat_lit 0x07d0_089d_089e_089e_07d1_07d1_07d1_07d1_07d1_07d1_07d1_07d1_07d1_07d1_07d1_07d1_07d1_07d1_07d1_07d1_07d1_07d1_07d2_07d2_07d2_07d6_07d3_07d4_07d4_07d5_07d5_07d7_07d7_07eb_07eb_07d8_07d9_07d9_07d9_08a1_08a1_07fe_07fe_082b_082b_07da_07da_07da_07da_0830_0830_0834_0834_0834_0835_0835_0835_0835_0853_0853_07db_07db_07db_07db_07db_07db_07db_07db_07db_07db_07db_0899_0899_089a_089a_089a_089b_089b_089c_089c_089c_088b_088b_088b_088c_088c_088c_088c_088c_088c_088e_088e_088f_088f_0849_0849_0889_0889_0888_0887_0887_0886_0886_0885_0890_0890_07e0_0875_0876_0876_0876_0876_0876_086a_0857_0857_0857_0857_0857_086b_086b_086b_086b_086b_086b_086b_086b_086b_086b_086b_086b_086b_086b_086b_086b_086b_086b_086b_086b_086b_0896_0896_0896_0897_0897_0897_0897_0897_0897_0897_0897_0892_0892_0893_0893_0893_0893_0893_0893_0893_0893_0893_0893_0893_0893_0893_0893_0860_0860_0860_0860_0860_0860_0891_0891_088d_088d_088d_088d_088d_085b_085b_0859_0859_0859_0859_0859_0859_0859_0859_0859_0859_085a_085a_085a_085a_085a_085a_085a_085a_085c_085c_085c_085c_085c_085c_085c_085c_0858_0858_085d_085d_085d_085d_085d_085d_085d_085d_085d_085d_085d_085d_085d_085d_085d_085d_085d_085d_085d_085d_085d_085d_085d_085e_085e_085e_085e_085e_085e_085e_085e_0869_0869_085f_085f_0867_0867_0868_0868_0868_0866_0866_0866_0863_0863_0864_0864_0865_0865_0865_0861_0861_0861_0862_0862_0862_086c_087e_087e_087e_0880_0880_0881_0881_087f_087f_087f_087f_087f_087f_087f_087f_087f_087f_087f_0874_0874_0898_0898_087d_087d_087d_087a_087a_087a_087a_087a_087a_087a_087a_0873_0873_087c_087c_087b_087b_086e_086e_086e_086e_086e_086f_0870_0870_0870_0870_086d_0894_0894_0894_0895_0895_0871_0871_0872_0872_0877_0877_0877_0878_0878_0878_0879_0879_0879_07dc_07dc_07dc_07dc_07dc_07dc_07dc_07dc_07dc_07dc_07dc_07dc_088a_088a_088a_088a_088a_088a_088a_088a_088a_088a_088a_08a2_08a2_08a3_08a3_08a3_08a3_08a3_08a3_08a3_0884_0882_0882_0883_0883_07dd_07de_07de_07de_07de_07de_07df_07df_07e1_07e2_07e2_07e2_07e2_07e2_07e2_07e2_07e2_07e2_07e2_07e2_07e2_07e2_07e2_07e2_07e2_07e2_07e2_07e2_07e2_07e2_07e2_07e2_083c_083c_0839_0839_083a_083a_083b_083b_083b_083d_083d_083d_0854_0854_0854_07e3_07e3_07e5_07e5_07e6_07e7_07e4_07e4_07e4_07e4_07e4_08a4_07e8_07e9_07e9_07ea_07ea_07ea_07ee_07ee_07ee_07ec_07ec_07ed_07ed_07f3_07f3_07f2_07f2_07f4_07f4_07f4_07f4_0848_0848_0848_0847_0847_07f6_07f6_07f7_07f7_07f8_07f8_07f9_07f9_07f9_0805_0805_0829_0829_0829_082c_082c_07fa_07fa_07fa_07fa_07fb_07fb_07fc_07fc_07fd_07fd_084f_084f_084e_084e_084e_084d_084d_07ff_07ff_07ff_0801_0800_0800_0800_0800_0802_0802_0804_0804_0803_0803_0806_0806_0806_0806_0807_0807_082a_082a_07f5_07f5_07f5_07f5_07f5_07f5_07f5_0838_0838_0809_0809_0808_0808_0808_0808_0808_0808_0808_0808_0808_0808_0813_0813_0813_0813_0813_0813_080a_080a_080a_080a_080a_080a_080a_07f1_07f1_0814_0814_0814_081a_0815_0815_080d_080d_080d_080d_080d_080d_080d_080d_080d_080d_080d_080d_080d_080d_080d_080d_080d_080d_080d_080d_080d_080d_080d_080d_080d_080d_080d_080d_080d_080d_080d_080d_0811_0811_0811_080f_080f_080f_080f_080f_080f_080f_080f_080f_080f_080f_080f_080f_080f_080f_0810_0810_0810_0810_0810_0810_0810_0810_0810_08a5_08a5_0812_0812_0812_0812_07ef_07ef_07ef_07ef_07ef_0852_0852_0855_0855_0855_0855_0855_0855_0855_0855_0855_0855_0855_0855_0855_0855_0856_0856_0856_0856_0856_0856_0856_081e_081e_07f0_07f0_081c_081c_081d_081f_081f_081b_081b_081b_080c_080c_080c_080c_080c_080c_080c_080c_080e_080e_080e_0820_0820_0821_0821_0822_0822_0823_0823_0824_0825_0825_0825_0826_0826_0826_0826_0827_0827_0827_080b_080b_080b_080b_080b_080b_0828_0828_0828_0828_082d_082d_0816_0816_0818_0818_0817_0819_082e_082e_0832_082f_082f_0833_0833_0833_0833_0831_0831_0831_084a_084a_084a_0836_0836_083e_083e_083f_083f_0837_0837_0840_0840_0840_0840_0840_0840_0840_0840_0840_0840_0841_0841_0841_0842_0842_0845_0845_0846_0846_084b_084b_084c_084c_0843_0843_0843_0843_0843_0843_0843_0843_0843_0843_0843_0843_0843_0843_0843_0843_0843_0843_0843_0843_0843_0843_0843_0843_0843_0843_0843_0843_0843_0843_0843_0843_0843_0843_0843_0843_0843_0843_0843_0843_0843_0843_0843_0843_0843_0843_0843_0843_0843_0843_0843_0843_0843_0843_0843_0843_0843_0843_0843_0843_0843_0843_0843_0843_0843_0843_0843_0843_0843_0843_0843_0843_0843_0843_0843_0843_0843_0843_0843_0843_0843_0843_0843_0843_0843_0843_0843_0843_0843_0843_0843_0843_0843_0843_0843_0843_0843_0843_0843_0843_0843_0843_0843_0843_0843_0843_0843_0844_0844_0844_0844_0844_0844_0844_0844_0844_0844_0844_0844_0844_0844_0844_0844_0844_0844_0844_0844_0844_0844_0844_0844_0844_0844_0844_0844_0844_0844_0844_0844_0844_0844_0844_0844_0844_0844_0844_0844_0844_0844_0844_0844_0844_0844_0844_0844_0844_0844_0844_0844_0844_0844_0844_0844_0844_0844_0844_0844_0844_0844_0844_0844_0844_0844_0844_0844_0844_0844_0844_0844_0844_0844_0844_0844_0844_0844_0844_0844_0844_0844_0844_0844_0844_0844_0844_0844_0844_0844_0844_0844_0844_0844_0844_0844_0844_0844_0844_0844_0844_0844_0844_0844_0844_0844_0844_0844_0844_0844_0844_0844_0844_0844_0844_0844_0844_0844_0844_0844_0844_0844_0844_0844_0844_0844_0844_0844_0844_0844_0844_0844_0844_089f_08a0_0850_0851_0851_0851
@[inherit_doc bitsR1] def yyR1 : Table := ⟨bitsR1, 999⟩

/-- Models /repo/sqlparser/parser.go 2566-2667, `yyR2` (999 entries). -/
def bitsR2 : Nat := nat_lit 0x07d0_07d2_07d0_07d1_07d1_07d1_07d1_07d1_07d1_07d1_07d1_07d1_07d1_07d1_07d1_07d1_07d1_07d1_07d1_07d1_07d1_07d1_07d4_07d6_07d7_07d5_07da_07d1_07d3_07d1_07d3_07d7_07d8_07d1_07d1_07d8_07d8_07d7_07d6_07d1_07d1_07d1_07d3_07d0_07d4_07d3_07d4_07d5_07d4_07d1_07d3_07d3_07d2_07d2_07d2_07d2_07d2_07d1_07d1_07d1_07d2_07de_07dd_07de_07d6_07d5_07d5_07d5_07db_07db_07d9_07d1_07d1_07d1_07d1_07d1_07d1_07d2_07d1_07d1_07d1_07d0_07d2_07d2_07d0_07d2_07d2_07d2_07d2_07d2_07d0_07d2_07d0_07d3_07d0_07d1_07d0_07d2_07d1_07d0_07d2_07d1_07d3_07d3_07d0_07d2_07d4_07d4_07d1_07d3_07d3_07d3_07d3_07d2_07d3_07d1_07d1_07d1_07d1_07d2_07d2_07d3_07d2_07d4_07d4_07d2_07d2_07d3_07d2_07d3_07d2_07d7_07d8_07d3_07d3_07d6_07d5_07d8_07d7_07d4_07d2_07d4_07d6_07d2_07d1_07d1_07d1_07d1_07d1_07d1_07d3_07d1_07d2_07d0_07d4_07d3_07d4_07d3_07d3_07d3_07d3_07d3_07d3_07d3_07d2_07d4_07d6_07d2_07d3_07d2_07d3_07d1_07d3_07d0_07d2_07d0_07d3_07d3_07d2_07d2_07d2_07d1_07d1_07d1_07d1_07d1_07d1_07d1_07d1_07d1_07d1_07d1_07d2_07d3_07d2_07d2_07d2_07d2_07d1_07d1_07d1_07d3_07d3_07d2_07d1_07d2_07d1_07d1_07d1_07d1_07d4_07d4_07d4_07d4_07d4_07d1_07d5_07d2_07d2_07d3_07d3_07d3_07d3_07d3_07d1_07d1_07d1_07d1_07d1_07d1_07d1_07d6_07d6_07d1_07d1_07d1_07d1_07d1_07d1_07d1_07d1_07d1_07d3_07d0_07d3_07d0_07d5_07d0_07d3_07d5_07d0_07d3_07d3_07d0_07d1_07d0_07d1_07d0_07d2_07d1_07d0_07d3_07d3_07d0_07d1_07d2_07d6_07d0_07d1_07d4_07d1_07d2_07d1_07d3_07d2_07d3_07d2_07d3_07d3_07d3_07d3_07d3_07d3_07d3_07d3_07d0_07d1_07d1_07d1_07d0_07d2_07d5_07d2_07d3_07d3_07d2_07d3_07d2_07d3_07d4_07d1_07d1_07d1_07d3_07d3_07d2_07d2_07d5_07d5_07d8_07d8_07dd_07d1_07d1_07d2_07d2_07da_07d0_07d1_07d1_07d0_07d3_07d0_07d1_07d1_07d3_07d0_07d1_07d3_07d1_07d2_07d3_07d1_07d1_07d1_07d6_07db_07dd_07d7_07d7_07d7_07dc_07d7_07d7_07d7_07d4_07d5_07d1_07d1_07d1_07d1_07d1_07d1_07d1_07d1_07d1_07d1_07d1_07d1_07d1_07d1_07d1_07d1_07d1_07d1_07d1_07d1_07d7_07d1_07d3_07d8_07d8_07d5_07d4_07d6_07d5_07d4_07d4_07d3_07d2_07d3_07d4_07d4_07d4_07d4_07d4_07d4_07d4_07d4_07d3_07d3_07d3_07d3_07d4_07d3_07d6_07d4_07d2_07d4_07d2_07d2_07d2_07d2_07d3_07d1_07d1_07d0_07d1_07d0_07d1_07d0_07d2_07d2_07d0_07d2_07d2_07d0_07d1_07d1_07d2_07d1_07d1_07d2_07d1_07d1_07d2_07d2_07d2_07d2_07d2_07d0_07d2_07d0_07d2_07d1_07d2_07d2_07d0_07d1_07d1_07d0_07d1_07d0_07d1_07d0_07d1_07d1_07d3_07d1_07d2_07d3_07d5_07d0_07d1_07d2_07d1_07d1_07d0_07d2_07d1_07d3_07d1_07d1_07d1_07d3_07d3_07d3_07d7_07d1_07d1_07d3_07d1_07d3_07d4_07d4_07d4_07d3_07d2_07d4_07d0_07d1_07d0_07d2_07d0_07d1_07d0_07d1_07d2_07d1_07d1_07d1_07d2_07d2_07d1_07d2_07d3_07d2_07d3_07d2_07d2_07d2_07d1_07d1_07d3_07d0_07d5_07d5_07d5_07d0_07d2_07d0_07d4_07d1_07d3_07d3_07d2_07d3_07d1_07d2_07d0_07d3_07d1_07d1_07d3_07d3_07d4_07d4_07d5_07d3_07d4_07d5_07d6_07d2_07d1_07d2_07d1_07d2_07d1_07d2_07d1_07d1_07d1_07d1_07d1_07d1_07d1_07d0_07d2_07d1_07d1_07d1_07d3_07d1_07d3_07d1_07d1_07d1_07d1_07d1_07d3_07d3_07d3_07d3_07d3_07d3_07d3_07d3_07d3_07d3_07d3_07d3_07d3_07d3_07d3_07d2_07d2_07d2_07d2_07d2_07d2_07d3_07d3_07d1_07d1_07d1_07d1_07d4_07d5_07d6_07d4_07d4_07d6_07d6_07d6_07d6_07d8_07d8_07d6_07d8_07d8_07d9_07d7_07d5_07d4_07d2_07d2_07d2_07d2_07d2_07d2_07d2_07d2_07d2_07d0_07d2_07d4_07d4_07d4_07d4_07d0_07d3_07d4_07d7_07d3_07d1_07d1_07d2_07d3_07d3_07d1_07d2_07d2_07d1_07d1_07d2_07d1_07d2_07d2_07d1_07d2_07d1_07d2_07d1_07d1_07d1_07d1_07d1_07d0_07d1_07d0_07d2_07d1_07d2_07d4_07d0_07d2_07d1_07d3_07d5_07d1_07d1_07d1_07d1_07d1_07d1_07d1_07d1_07d1_07d2_07d2_07d0_07d3_07d0_07d2_07d0_07d3_07d1_07d3_07d2_07d0_07d1_07d1_07d0_07d2_07d4_07d4_07d0_07d2_07d4_07d2_07d1_07d3_07d5_07d4_07d6_07d1_07d3_07d3_07d5_07d0_07d5_07d1_07d3_07d1_07d2_07d3_07d1_07d1_07d3_07d3_07d1_07d3_07d3_07d3_07d3_07d3_07d1_07d2_07d1_07d1_07d1_07d1_07d1_07d1_07d0_07d2_07d0_07d3_07d0_07d1_07d1_07d1_07d1_07d1_07d1_07d1_07d1_07d1_07d1_07d1_07d0_07d1_07d1_07d1_07d1_07d1_07d1_07d1_07d1_07d1_07d1_07d1_07d1_07d1_07d1_07d1_07d1_07d1_07d1_07d1_07d1_07d1_07d1_07d1_07d1_07d1_07d1_07d1_07d1_07d1_07d1_07d1_07d1_07d1_07d1_07d1_07d1_07d1_07d1_07d1_07d1_07d1_07d1_07d1_07d1_07d1_07d1_07d1_07d1_07d1_07d1_07d1_07d1_07d1_07d1_07d1_07d1_07d1_07d1_07d1_07d1_07d1_07d1_07d1_07d1_07d1_07d1_07d1_07d1_07d1_07d1_07d1_07d1_07d1_07d1_07d1_07d1_07d1_07d1_07d1_07d1_07d1_07d1_07d1_07d1_07d1_07d1_07d1_07d1_07d1_07d1_07d1_07d1_07d1_07d1_07d1_07d1_07d1_07d1_07d1_07d1_07d1_07d1_07d1_07d1_07d1_07d1_07d1_07d1_07d1_07d1_07d1_07d1_07d1_07d1_07d1_07d1_07d1_07d1_07d1_07d1_07d1_07d1_07d1_07d1_07d1_07d1_07d1_07d1_07d1_07d1_07d1_07d1_07d1_07d1_07d1_07d1_07d1_07d1_07d1_07d1_07d1_07d1_07d1_07d1_07d1_07d1_07d1_07d1_07d1_07d1_07d1_07d1_07d1_07d1_07d1_07d1_07d1_07d1_07d1_07d1_07d1_07d1_07d1_07d1_07d1_07d1_07d1_07d1_07d1_07d1_07d1_07d1_07d1_07d1_07d1_07d1_07d1_07d1_07d1_07d1_07d1_07d1_07d1_07d1_07d1_07d1_07d1_07d1_07d1_07d1_07d1_07d1_07d1_07d1_07d1_07d1_07d1_07d1_07d1_07d1_07d1_07d1_07d1_07d1_07d1_07d1_07d1_07d1_07d1_07d1_07d1_07d1_07d1_07d1_07d1_07d1_07d1_07d1_07d1_07d1_07d1_07d1_07d1_07d1_07d1_07d1_07d1_07d1_07d1_07d1_07d1_07d1_07d1_07d1_07d1_07d1_07d1_07d1_07d1_07d1_07d1_07d1_07d1_07d1_07d1_07d1_07d1_07d1_07d1_07d1_07d1_07d1_07d1_07d1_07d0_07d0_07d1_07d1
@[inherit_doc bitsR2] def yyR2 : Table := ⟨bitsR2, 999⟩

/-- Models /repo/sqlparser/parser.go 2669-2841, `yyChk` (1702 entries). -/
def bitsChk : Nat := nat_lit 0x03e8_0703_07cf_07ce_07ca_07c9_07c8_07c7_07c6_07c5_07c4_07c3_07c2_07c1_07bf_07be_07bd_07bb_07ba_07b9_07bc_07cd_07cc_07d6_07d7_07b5_07d9_07da_07ed_07c0_0840_0841_0843_0842_085f_0844_0858_0800_087f_0880_0882_0883_07e9_0859_085a_085d_085e_0701_07d8_08e7_0804_0702_0909_077e_07df_07b6_07d5_07b8_06fc_07b8_07b8_07b8_07b8_07b8_072b_0804_0757_0710_0867_08df_0846_0855_0866_0847_0856_0816_0769_0849_084b_0847_0847_0848_0849_08df_0846_0847_079d_0755_0807_075c_086e_08f0_07e4_087f_088c_088d_0884_08ad_08a1_08f1_086c_089e_08a2_08d2_0908_0810_0882_08db_084f_0872_085b_0899_089c_089b_0893_0890_07eb_08b3_08f7_0892_0852_08b4_08b8_08be_08d3_08ee_0889_088a_08d5_08b1_07ef_0854_08f2_07f1_0863_08d6_08b6_08b0_08ab_08af_0888_08aa_07f5_0896_08ba_08b9_08bb_08d1_08a4_086d_08bd_08a6_0894_08a5_07e2_085e_0861_08b5_08b7_0891_086f_084d_0865_08f6_08d7_088f_0862_0870_085d_08da_0905_086b_0883_08d4_088b_08dd_07f4_08c3_089d_0886_0895_0887_0851_0880_0869_08a8_0864_0897_0898_08ae_0885_08a9_0881_0866_085f_08dc_08c4_08f8_08a7_08a3_089f_08a0_086a_0849_0867_0868_08ca_08cb_08cc_08cd_08f3_08f4_08d8_089a_08c5_08c6_0874_0875_0876_0877_0878_0879_087a_0847_083a_08a2_0840_08c8_0848_07ef_0865_074c_0847_0767_0868_08ca_08cb_08cc_08cd_0807_08d4_08d3_08ce_0755_0881_0750_0750_0750_0750_0750_07ce_077a_07e1_07e0_07cb_07cd_0701_07d6_07e4_07e5_07b2_07f6_07f7_07b7_07ac_0831_07ab_0755_0798_0818_0793_07ec_0807_075c_07e7_0794_0797_0785_0787_0786_083a_083b_082f_0830_0837_0819_083c_078f_0791_0790_078e_0809_0808_0811_080a_080b_080c_080d_0812_0813_0814_075b_0789_0701_07fa_07fb_08e8_08e9_08ea_08eb_08ef_08ec_081b_07f0_08de_08e6_08e5_08e4_08e2_08e3_08e0_08e1_0907_084c_08df_0835_08e7_0769_07a9_07a8_07a7_07a6_079b_0786_0701_079d_07db_07a2_079d_0771_074d_0881_076d_08d4_08d3_075a_076f_075b_075d_08d2_08a2_08d1_0807_075c_0845_087c_08fa_0817_07e6_07e8_08c1_08c7_087b_081a_083a_07e0_081b_0903_0904_0839_08e8_0840_07fe_08e0_08e1_08de_08ea_08eb_08df_08c8_07ec_07da_07e9_0859_07e5_0833_0842_087d_081e_081f_085c_07e7_085a_0814_07e3_0801_0853_07db_08f9_07dd_07de_08fb_084c_084b_082a_0906_0848_07fc_07d8_083c_07ea_0827_07f8_0857_07fa_0828_07e1_08e2_08e3_07ee_08ef_0860_0835_07ff_07f2_0818_0812_0802_08d9_0816_07df_07fd_0855_0829_0843_08e7_07fb_087e_0846_07d6_08ed_07ed_0858_07f9_0847_08c9_081d_084a_0813_07d5_0856_07d9_0800_0803_08e4_08e5_08e6_07f0_081c_07dc_0815_072a_0736_0807_070c_0903_0904_0849_075b_0761_084c_0761_075b_075b_0761_08e7_0847_079d_079d_0762_084c_0807_0762_0762_0762_079d_083d_079d_0807_07ed_08df_0807_0865_0847_0866_0849_074f_0701_075a_074f_074f_074f_0869_086a_074f_0766_08cf_0802_074f_0700_0806_0779_07e3_07ee_07ab_0755_077d_077c_07ab_077e_07ce_07b8_07f2_07b4_07e5_080f_07db_0758_0817_0816_0827_0759_07e6_075b_0809_083d_07ab_0796_082a_0818_0828_0829_081a_082c_082b_0836_082f_0830_0831_0832_0833_0834_0835_082d_082e_0839_0907_0820_0821_0822_0823_0824_0825_0826_0768_0701_0786_0701_083e_083f_0793_0793_0793_0793_0793_0793_0793_0701_07ce_078b_07ab_0701_0701_0701_0701_0701_0701_0701_0701_0701_0782_07ab_0701_06fb_0701_06fb_06fb_06fb_06fb_06fb_06fb_06fb_074a_083a_08a2_085b_0899_0747_0748_08a8_0884_0885_0886_0887_0888_0889_088a_088b_088c_088d_08a1_08f1_0701_0701_0701_0701_079c_07ea_079d_07ed_0805_07a1_079f_07a0_079e_07f8_07fc_07fe_07f9_07fa_07fb_07ff_0751_07e6_07a9_0701_0752_0861_0753_07e6_0755_0809_079d_07a2_06ff_0805_07db_0803_0805_0771_0881_0770_076c_08d5_08d7_0820_0756_075b_0809_07ec_07ed_0806_0805_0735_0749_0745_0748_0743_0744_0742_0747_0746_089e_08a2_089f_08a4_08a5_08a6_083a_08a3_08a8_08a9_08aa_08ab_08ac_08ad_08ae_08af_08b0_08b1_08b2_08a7_08b3_07ed_085b_0897_0898_0899_089c_089b_089d_089a_08b4_08b5_08b6_08b7_08b8_08b9_08ba_08bb_088f_0890_0892_0893_0894_0896_0895_0848_079d_0717_0803_0807_0818_0807_0802_0707_0802_087b_087c_079d_079d_08d9_074f_084a_079d_07e7_0802_079d_0807_0807_0754_0755_075d_074f_074f_074f_074f_074f_074f_074f_074f_074f_074f_0764_08c9_08d0_079d_07d9_082a_0805_07e2_083d_0805_077b_07e8_07e9_077a_0700_07b2_0792_075b_080a_080d_07b3_07f9_079d_07ab_07ab_078d_0812_0818_0813_0814_0759_0831_0754_075a_075d_0793_078c_0789_0786_080e_082a_0828_0829_081a_0793_0793_0793_0793_0793_0793_0793_0793_0793_0793_0793_0793_0793_0793_0793_074e_0807_0809_074a_0807_0794_0794_075b_07ad_07e5_07ae_07ac_0700_0805_0700_07ce_07ae_07ae_07ab_07ab_0785_075b_0755_0785_07ae_07b4_0784_0783_081c_0785_0700_08a0_07ae_07ad_07ae_07ae_0775_0861_079d_0772_076e_0785_07a8_07a7_07a7_07a8_07a7_07f8_07f8_07f8_07fd_07f8_07fd_07f8_07a0_0755_0700_079a_0800_084b_0801_0701_0753_0775_0803_07a9_079d_076d_0770_0805_08d6_08d8_08d9_0802_0815_07ab_073e_083a_0839_0729_0728_0727_075a_0809_080a_0736_0734_0732_0733_0726_0731_084f_084d_0851_0852_0856_072d_0848_0857_0812_0818_070a_084f_0802_08c1_08c7_084d_0857_0856_0908_0810_0850_08f9_08fb_07ec_073b_090a_08bc_073d_08c4_0741_0804_0741_0741_08a0_0741_0741_0741_0741_0741_073f_08a2_073f_073f_073f_073f_0804_0804_0741_0741_0741_0741_0739_0804_0891_0739_0739_0738_0804_0738_075b_07e6_0719_08f3_0718_0807_074f_07e7_074f_079d_0706_07d8_07d9_07da_079d_0760_0845_0842_0843_071c_0841_08c1_08a2_0810_07ec_07df_08e8_0861_08f8_0807_0862_079d_079d_079d_074f_0765_07db_082a_07f4_07ab_07ab_0754_077c_0779_076a_07e3_07db_07f0_07f0_07ae_0812_0813_0814_083d_0701_078c_0793_0793_0793_07af_085c_0817_0700_0700_07ae_0805_07ab_0700_0700_0700_0805_0803_07e6_0805_07db_083d_0805_07db_0700_07ae_0781_0783_081e_07ab_0700_0700_0700_0700_0700_0795_07ed_07f0_07ce_0701_0701_0799_0805_07dc_0820_07a4_07a5_0802_0803_07a3_0802_07a5_07f8_07f8_0848_0848_0848_0774_075b_0799_07a9_0799_076c_076b_08da_08d7_08dd_0807_0805_0727_0820_0804_070b_0802_0818_072f_075b_0857_072d_072d_0807_072d_0807_0807_0812_07e3_075b_07d9_0857_0857_070b_0809_0755_070e_08fa_07e0_0804_0709_0804_0809_080a_080b_0812_0740_0811_0797_08bd_08de_08e1_08e0_08be_090b_073c_08c5_080a_073f_073f_0741_073f_073f_073f_073e_07ed_073e_073e_073e_073e_0737_0809_0737_073a_08f3_08f4_073a_080a_0739_080a_0802_0803_07ce_071a_071b_075a_0715_07e6_0802_0707_0750_0757_06fd_0867_084e_0853_0852_0807_084d_0851_0861_0716_0867_084e_084f_0853_0852_0807_0848_0857_084d_0851_0861_0856_075f_075e_084a_07e6_0848_0857_0861_0845_074f_0763_0828_07dc_0755_0755_07f5_083d_079d_07aa_07db_0831_075a_07ad_07af_0817_0793_0793_0700_07ac_074b_083a_089e_085b_0899_0893_08b1_08b2_08a4_08c3_0897_08c4_074e_074b_0793_0793_075a_0793_0793_08f0_077e_081f_07ab_081d_0773_0802_0772_078a_0788_0789_0701_07ce_0778_075b_0774_077e_076e_07ab_07ab_07ab_0804_07ab_0701_0701_0701_0700_0805_077e_0799_08d7_08db_08dc_0728_0727_0724_0725_075b_0857_07da_07d9_07e3_0853_084d_0807_0807_0807_070c_0856_0905_070a_0908_0740_0701_0804_07e6_07ec_080a_0709_0804_0713_0907_0701_0741_0804_0741_0804_0804_0806_073e_073e_073f_073e_073e_073e_0807_083a_0806_0805_0806_0897_0897_0805_0806_0805_079d_075b_0805_0820_0714_07e3_086f_0870_079d_0706_06fe_0848_0857_0750_075b_0750_075b_079d_0750_075b_084f_0732_0809_07ab_0799_07a9_0700_0793_0700_0741_0741_0741_0738_0741_088a_0741_088a_0700_0700_0700_0805_07e3_0700_0805_07e3_0701_07b0_08ed_07ab_07eb_0773_0805_0700_0700_0700_0805_083d_0700_077a_0777_075b_0857_0777_0777_0777_0752_075b_077a_0806_0805_0741_0741_0730_086b_086c_07ed_086d_0730_0905_0857_0857_070c_070b_07ab_0777_08fb_0805_0806_0709_08a2_0898_08bf_08a8_0700_0806_0806_0806_073e_073f_0809_073f_08c6_08c6_080a_080a_0804_0803_0802_071b_0727_084a_07e4_07d6_07d8_07d9_07da_07e3_07e6_075b_0804_07ea_075b_0780_07dd_073f_0807_0793_0793_0793_0793_0793_0700_0809_0857_0788_07f0_07ce_0701_075b_075b_0805_0806_0700_0700_0700_079a_0722_0720_08f3_0721_0803_0854_0810_0874_0875_0876_0877_0878_0879_087a_0725_077b_070b_0802_0812_086e_070b_0802_072f_075b_070c_0701_0700_0806_0804_080a_0806_08a0_073a_073e_073e_0806_0806_0724_075b_079d_072e_075b_087d_0705_0704_07c9_07c7_07c8_0804_0777_0701_084d_077f_07de_07e0_0700_0700_0700_0700_07b1_082a_08f3_07d9_078a_07ce_083d_075b_0723_0802_0721_08f3_0804_08f5_0807_072c_0820_0809_0820_0820_0820_0820_0820_0820_0820_07d9_07da_0804_0804_07ab_070f_086d_070d_0806_0806_0806_0804_0804_0712_0805_0803_087e_0704_0724_0806_071e_071d_0861_0857_07ab_078b_0700_08f1_07ff_08f6_0772_0700_075b_075b_071f_0721_075b_080a_0708_0802_0815_080a_0708_0708_0708_0708_0708_0730_0730_072e_0724_0700_08ee_0806_0880_08fd_08fe_0860_08ff_086d_0900_0901_0776_0906_0724_0724_0711_08f3_075b_07ab_0704_0806_0717_0700_0805_075b_0804_07f5_08f2_08f7_0701_0806_0805_070b_070b_0806_0806_08f3_080a_07e0_080a_080a_080a_080a_08fe_0860_0900_07e0_0799_0804_0806_0806_0908_0719_071d_07f0_0724_07f5_075b_0721_0850_0722_080a_080a_0902_0755_0722_0777_0799_0722_07ab_0863_0806_08f3_0700_079d_0723_083d_0723_0806_0722_0864_08f6_0804_075a_0701_08f7_072e_0793_0860_0806_0700_0700
@[inherit_doc bitsChk] def yyChk : Table := ⟨bitsChk, 1702⟩

/-- Models /repo/sqlparser/parser.go 2843-3015, `yyDef` (1702 entries). -/
def bitsDef : Nat := nat_lit 0x07d0_07ce_07d2_07ce_07d5_07d6_07d7_07d8_07d9_07da_07db_07dc_07dd_07de_07df_07e0_07e1_07e2_07e3_07e4_07e5_0a72_07d0_097e_097e_097e_097e_097e_097e_07d0_07ce_0aa8_07d0_07d0_07d0_07d0_07ce_0974_0975_07d0_0977_0978_0bb3_0bb3_0bb3_0bb3_0bb3_07d0_07f1_07f2_0bb1_07d1_07d3_0a7a_07d0_07d0_0982_0985_0980_07d0_0aa8_07d0_07d0_07d0_080c_07d0_090d_07d0_07d0_0aa6_0aa6_07d0_07d0_0aa6_082f_07d0_07d0_07d0_0aa9_07d0_0aa4_07d0_0aa4_0aa4_0aa4_07d0_094b_09c6_0abd_0abe_0b2c_0b2d_0b2e_0b2f_0b30_0b31_0b32_0b33_0b34_0b35_0b36_0b37_0b38_0b39_0b3a_0b3b_0b3c_0b3d_0b3e_0b3f_0b40_0b41_0b42_0b43_0b44_0b45_0b46_0b47_0b48_0b49_0b4a_0b4b_0b4c_0b4d_0b4e_0b4f_0b50_0b51_0b52_0b53_0b54_0b55_0b56_0b57_0b58_0b59_0b5a_0b5b_0b5c_0b5d_0b5e_0b5f_0b60_0b61_0b62_0b63_0b64_0b65_0b66_0b67_0b68_0b69_0b6a_0b6b_0b6c_0b6d_0b6e_0b6f_0b70_0b71_0b72_0b73_0b74_0b75_0b76_0b77_0b78_0b79_0b7a_0b7b_0b7c_0b7d_0b7e_0b7f_0b80_0b81_0b82_0b83_0b84_0b85_0b86_0b87_0b88_0b89_0b8a_0b8b_0b8c_0b8d_0b8e_0b8f_0b90_0b91_0b92_0b93_0b94_0b95_0b96_0b97_0b98_0b99_0b9a_0b9b_0b9c_0b9d_0b9e_0b9f_0ba0_0ba1_0ba2_0ba3_0ba4_0ba5_0ba6_0ba7_0ba8_0ba9_0baa_0bab_0bac_0bad_0bae_0baf_0bb0_07d0_07d0_07d0_07d0_0bb4_0bb4_0bb4_0bb4_07d0_0bb4_0968_095d_095f_0960_0961_0962_0bb4_0971_0972_0967_0973_0976_0979_097a_097b_097c_097d_07eb_0a7e_07d0_07d0_0a72_07ed_07d0_097e_0983_0984_0988_0986_0987_097f_07d0_0990_0994_07d0_09d0_07d0_09d5_09d7_07ce_07ce_07d0_09fa_09fb_09fc_09fd_09fe_07d0_07d0_07d0_07d0_07d0_07d0_07d0_0a16_0a17_0a18_0a19_0a63_0a64_0a65_0a66_0a67_0a68_0a69_0a6a_09d9_09da_0a60_0a92_07d0_07d0_07d0_07d0_07d0_07d0_07d0_07d0_07d0_0a57_07d0_0a35_0a35_0a35_0a35_0a35_0a35_0a35_0a35_07d0_07d0_07d0_07d0_07d0_07d0_07d0_099b_099d_099e_099f_09b3_07d0_09b5_07d0_07d0_07f9_07fd_07d0_0b92_0a96_07ce_07ce_07d0_07d0_0abb_0abc_07ce_0b38_07ce_0ab9_0aba_0ac1_0ac2_0ac3_0ac4_0ac5_0ac6_0ac7_0ac8_0ac9_0aca_0acb_0acc_0acd_0ace_0acf_0ad0_0ad1_0ad2_0ad3_0ad4_0ad5_0ad6_0ad7_0ad8_0ad9_0ada_0adb_0adc_0add_0ade_0adf_0ae0_0ae1_0ae2_0ae3_0ae4_0ae5_0ae6_0ae7_0ae8_0ae9_0aea_0aeb_0aec_0aed_0aee_0aef_0af0_0af1_0af2_0af3_0af4_0af5_0af6_0af7_0af8_0af9_0afa_0afb_0afc_0afd_0afe_0aff_0b00_0b01_0b02_0b03_0b04_0b05_0b06_0b07_0b08_0b09_0b0a_0b0b_0b0c_0b0d_0b0e_0b0f_0b10_0b11_0b12_0b13_0b14_0b15_0b16_0b17_0b18_0b19_0b1a_0b1b_0b1c_0b1d_0b1e_0b1f_0b20_0b21_0b22_0b23_0b24_0b25_0b26_0b27_0b28_0b29_0b2a_0b2b_07d0_083c_07d0_07d0_090e_090f_07d0_0830_07d0_07d0_07d0_07d0_07d0_07d0_0839_07d0_0bb4_07d0_07d0_07d0_07d0_07d0_07d0_07d0_094a_07d0_094c_0bb4_0bb4_0bb4_0bb4_0bb4_0bb4_0bb4_0bb4_0955_0bb5_0bb6_0956_0957_0958_0bb4_0bb4_095a_07d0_0969_07d0_0963_07ec_0bb2_07e6_07d0_07d0_0a7b_07d0_0a73_0a74_0a77_0a7a_07eb_0985_07d0_098a_0989_0981_07d0_0991_07d0_07d0_07d0_0995_07d0_0997_0998_07d0_09d3_07d0_07d0_07d0_07d0_07d0_07d0_07d0_07d0_07d0_07d0_07d0_07d0_07d0_07d0_07d0_07d0_07d0_07d0_07d0_07d0_09eb_09ec_09ed_09ee_09ef_09f0_09f1_09d6_07d0_09e4_07d0_07d0_07d0_0a0e_0a0f_0a10_0a11_0a12_0a13_07d0_098c_07eb_07d0_09f8_07d0_07d0_07d0_07d0_07d0_07d0_07d0_07d0_0988_07d0_0a58_07d0_0a2c_07d0_0a2d_0a2e_0a2f_0a30_0a31_0a32_0a33_0a34_0a50_07d0_0a52_0a53_0a54_0a55_0a56_0886_0887_0888_0889_088a_088b_088c_088d_088e_088f_08a0_08a1_07d0_098c_07d0_07d0_07fb_07d0_09c5_07d0_07d0_07d0_07d0_07d0_07d0_09ba_07d0_07d0_09bd_07d0_07d0_07d0_07d0_09b4_07d0_07d0_09c8_0b6e_09b6_07d0_09b8_09b9_07ce_07d0_07d0_07d0_07f7_07f8_07d0_07fe_0b92_0800_0801_07d0_07d0_07d0_08d7_0a9f_0aa0_0aa1_0a9d_0916_07d0_0841_08d1_08cd_0843_0844_0845_0846_08c3_0885_08c3_08c3_08c3_08c3_08c3_08a7_08c3_08c3_08d4_08d4_08d4_08d4_08d4_08b0_08b1_08b2_08b3_08b4_08b5_08b6_07d0_07d0_0898_08c3_08c3_08c3_089c_08c3_089e_089f_08b9_08ba_08bb_08bc_08bd_08be_08bf_08c0_08c5_08c5_08c5_08c7_08c7_0896_0897_07d0_07d0_0833_07d0_0bb4_07d0_0bb4_07d0_07d0_07d0_0817_0818_083a_07d0_07d0_0929_07d0_0945_0aa5_07d0_0bb4_0948_0949_09c7_0abf_0ac0_094d_094e_094f_0950_0951_0952_0953_0954_0959_095c_096a_0964_0965_095e_0a7f_07d0_07d0_07d0_07d0_07d0_0a76_0a78_0a79_0a7e_07ee_0988_07d0_0a6b_07d0_07d0_07d0_098b_07e9_09d1_09d2_09d4_09e5_07d0_09e7_09e9_0996_0992_07d0_0a61_07ce_09db_09dc_09f4_09f5_09f6_07d0_07d0_07d0_07d0_09f2_09e0_07d0_09ff_0a00_0a01_0a02_0a03_0a04_0a05_0a06_0a07_0a08_0a09_0a0a_0a0d_0a40_0a41_0a15_07d0_0a0b_0a0c_0a14_07d0_07d0_098d_098e_09f7_07d0_0a91_07eb_07d0_07d0_07d0_07d0_07d0_0a60_07d0_07d0_07d0_07d0_0a5e_0a5b_07d0_07d0_0a36_0a51_07d0_07d0_07d0_07d0_07d0_07d0_09c4_09cc_0a93_07d0_099c_09af_09b1_07d0_09ac_09bb_09bc_09be_07d0_09c0_07d0_09c2_09c3_09a0_09a1_09a2_07d0_07d0_07d0_07d0_09b7_09cc_07d0_09cc_07fa_0a97_07ff_07d0_07d0_0804_0805_0a98_0a99_0a9a_0a9b_08d8_07d0_083b_0917_0919_091c_091d_091e_083d_083e_083f_0840_07d0_0910_0912_07d0_07d0_07d0_07d0_07d0_08fc_08fd_0848_07d0_084a_07d0_07d0_084d_084e_07d0_0850_0852_0910_07d0_07d0_07d0_07d0_07d0_0847_07d0_08d3_08cf_08ce_0884_07d0_08d4_08d4_08c3_08d4_08d4_08d4_08a9_08aa_08d7_07d0_08d7_08d7_08d7_08d7_07d0_07d0_08ca_08ca_089b_089d_0890_07d0_08c5_0892_0893_0894_07d0_0895_07d0_07d0_0811_07d0_0831_0832_0812_0aa7_0813_0821_07d0_0819_081a_081b_07d0_0bb3_082e_07d0_0ab4_092a_0aaa_0aab_0aac_0aad_0aae_0aaf_0ab0_0ab1_0ab2_0ab3_07d0_07d0_0944_0bb4_0947_096d_07d0_07d0_07d0_0a7c_0a7d_07d0_0a75_07e7_07d0_0aa2_0aa3_0a6c_0a6d_0999_09e6_09e8_09ea_07d0_098c_09dd_09f2_09e1_07d0_09de_07d0_07d0_09d8_0a1a_07d0_07d0_09f9_07ce_0a1d_0a1e_07d0_07d0_07d0_07d0_07d0_07d0_07d0_07d0_07d0_0a72_07d0_0a5c_07d0_07d0_0a2b_0a37_0a38_0a39_0a3a_0a8b_07d0_07d0_07ce_07d0_07d0_0a72_07d0_07d0_07d0_09a9_09b0_07d0_07d0_09aa_07d0_09ab_09bf_09c1_07d0_07d0_07d0_07d0_09a7_0a72_09cc_07f6_0802_0803_07d0_07d0_0809_08d9_07d0_091a_07d0_07d0_0902_07d0_07d0_07d0_0913_08f4_07d0_07d0_08f7_07d0_08f9_090d_0849_07d0_07d0_07d0_084f_0851_07d0_0855_0856_07d0_0867_07d0_07d0_085c_07d0_087f_0860_0861_0862_0863_0864_0865_07d0_08c3_08c3_087b_07d0_08d2_0842_08d0_07d0_08d7_08d7_08d4_08d7_08d7_08d7_08ab_07d0_08ac_08ad_08ae_08af_07d0_08c1_07d0_0899_07d0_07d0_089a_07d0_0891_07d0_07d0_07d0_07ce_0834_0835_07d0_0824_07d0_07d0_07d0_091f_07d0_0bb3_07d0_0938_0939_093a_093b_093c_093d_093e_0bb3_07d0_092b_092c_092d_092e_092f_0930_0931_0932_0933_0934_0935_07d0_0bb3_0ab5_0ab6_0ab7_0ab8_07d0_07d0_0946_095b_07d0_07d0_096b_096c_0a80_07d0_07e8_09cc_07d0_0993_0a62_07d0_09df_07d0_09f3_09e2_0a1b_098f_07d0_08c3_08c3_0a45_08c3_08c7_0a48_0a49_08c3_0a4b_08c3_0a4e_07d0_07d0_07d0_07d0_0a61_07d0_07d0_07d0_0a59_0a2a_0a5f_07d0_07ef_07d0_0a8b_0a81_0a8d_0a8f_07d0_07eb_07d0_0a87_07d0_0a7a_0a94_09cd_0a95_09ad_07d0_09b2_07d0_07d0_07d0_09b5_07d0_0a7a_07f5_0806_0807_0808_0918_091b_07d0_08fe_08c3_08c3_07d0_07d0_07d0_07d0_07d0_08f5_08f6_08f8_08fa_090d_085b_084b_0910_084c_07d0_07d0_07d0_0868_07d0_07d0_07d0_085f_07d0_07d0_0877_07d0_0879_07d0_07d0_08c4_08a2_08a3_08d7_08a4_08a5_08a6_08d5_08d6_08d4_07d0_08d4_07d0_07d0_07d0_08c8_07d0_07d0_07d0_07d0_07d0_07d0_07d0_0822_0823_07d0_07d0_07d0_0936_0937_0923_07d0_0924_0926_0927_0928_07d0_0912_0922_096e_096f_0a6e_099a_0a1c_09e3_0a1f_0a42_08d4_0a46_0a47_0a4a_0a4c_0a4d_0a4f_0a21_0a20_0a22_07d0_07d0_0a25_07d0_07d0_07d0_07d0_07d0_0a5d_07d0_07f0_07d0_0a90_07ce_07d0_07d0_07d0_07fc_07f3_07d0_09a4_09a5_07d0_07d0_07d0_09c8_09a8_07f4_08db_07d0_0a77_0901_0910_0908_0909_07d0_07d0_0910_0911_0912_090d_08fb_07d0_07d0_07d0_0858_07d0_085d_07d0_07d0_08ca_0882_0883_0866_0878_087a_087c_08a8_08d7_08c2_08d7_08cb_08cc_07d0_07d0_07d0_07d0_07d0_0836_0837_07d0_0825_0826_0827_0828_0829_07d0_07d0_07d0_07d0_07d0_0913_0a70_07d0_0a43_0a44_07d0_07d0_07d0_07d0_0a3b_0a29_0a5a_07d0_0a8e_07d0_07ce_07d0_0a89_0a88_07d0_09ae_09c9_09ca_09cb_09a3_08f1_08dc_07d0_08de_07d0_08ed_07d0_07d0_07d0_07d0_07d0_07d0_07d0_07d0_08ff_0900_0903_07d0_090a_090b_0904_07d0_07d0_0913_07d0_07d0_087d_0857_0869_07d0_07d0_0880_0881_08b7_08b8_08c6_08c9_07d0_07d0_07d0_082a_0914_07d0_0816_081c_081e_081f_0820_07d0_07d0_07d0_07d0_07ea_07d0_07d0_0a23_0a24_0a26_0a27_07d0_07d0_07d0_07d0_0a84_07eb_07d0_09a6_08da_07d0_08df_07d0_07d0_07d0_08e2_07d0_08ee_08e4_07d0_07d0_07d0_07d0_07d0_07d0_07d0_07d0_07d0_07d0_07d0_07d0_0853_07d0_07d0_085a_085e_09ce_07d0_07d0_082c_07d0_07d0_07d0_081d_07d0_0830_07d0_0940_07d0_07d0_0a71_0a6f_0a28_07d0_07d0_07d0_0a8c_07ce_0a8a_08f2_07d0_08e0_08e5_08e3_08e6_08ef_08f0_08e7_08e8_08e9_08ea_08eb_08ec_0910_0910_07d0_07d0_0854_087e_0859_07d0_07d0_07d0_07d0_07d0_07d0_0874_07d0_09cc_07d0_07d0_07d0_0814_07d0_0915_082b_0815_0920_0833_093f_07d0_07d0_07d0_0a3c_07d0_0a3f_07d0_08dd_07d0_0905_0906_07d0_08db_07d0_086b_07d0_086d_086e_086f_0870_0871_0872_0873_07d0_08db_07d0_09cc_08db_07d0_0925_0941_07d0_07d0_0a3d_07d0_08e1_07d0_08f1_086a_086c_0875_07d0_08f1_07d0_08db_080e_082d_07d0_0921_07d0_08f3_07d0_090c_07d0_080d_09cf_080f_07d0_07d0_07d0_0876_07d0_0a3e_07d0_07d0_07d0_0907_0942_0943
@[inherit_doc bitsDef] def yyDef : Table := ⟨bitsDef, 1702⟩

/-- Models /repo/sqlparser/parser.go 728-785, `yyExca`, two entries at a time. -/
def yyExca : List (Int × Int) :=
  [(-1, 1), (1, -1), (-2, 0), (-1, 3), (5, 27), (-2, 4), (-1, 30), (121, 104),
   (-2, 94), (-1, 36), (153, 416), (154, 416), (-2, 406), (-1, 272), (109, 749), (-2, 745),
   (-1, 273), (109, 750), (-2, 746), (-1, 343), (80, 943), (-2, 58), (-1, 344), (80, 894),
   (-2, 59), (-1, 349), (80, 873), (-2, 716), (-1, 351), (80, 917), (-2, 718), (-1, 652),
   (51, 41), (53, 41), (-2, 43), (-1, 797), (109, 752), (-2, 748), (-1, 1039), (5, 28),
   (-2, 551), (-1, 1064), (5, 27), (-2, 690), (-1, 1165), (5, 27), (-2, 64), (-1, 1382),
   (5, 28), (-2, 691), (-1, 1465), (5, 27), (-2, 693), (-1, 1590), (5, 28), (-2, 694)]

/-- Models /repo/sqlparser/parser.go 3017-3031, `yyTok1`: the token of a character. -/
def yyTok1 : List Nat :=
  [1, 3, 3, 3, 3, 3, 3, 3, 3, 3, 3, 3, 3, 3, 3, 3, 3, 3, 3, 3,
   3, 3, 3, 3, 3, 3, 3, 3, 3, 3, 3, 3, 3, 73, 3, 3, 3, 100, 92, 3,
   52, 54, 97, 95, 53, 96, 109, 98, 3, 3, 3, 3, 3, 3, 3, 3, 3, 3, 3, 313,
   81, 80, 82, 3, 3, 3, 3, 3, 3, 3, 3, 3, 3, 3, 3, 3, 3, 3, 3, 3,
   3, 3, 3, 3, 3, 3, 3, 3, 3, 3, 3, 314, 3, 315, 102, 3, 3, 3, 3, 3,
   3, 3, 3, 3, 3, 3, 3, 3, 3, 3, 3, 3, 3, 3, 3, 3, 3, 3, 3, 3,
   3, 3, 3, 3, 91, 3, 103]

/-- Models /repo/sqlparser/parser.go 3033-3060, `yyTok2`: the token of a code from 57344 on. -/
def yyTok2 : List Nat :=
  [2, 3, 4, 5, 6, 7, 8, 9, 10, 11, 12, 13, 14, 15, 16, 17, 18, 19, 20, 21,
   22, 23, 24, 25, 26, 27, 28, 29, 30, 31, 32, 33, 34, 35, 36, 37, 38, 39, 40, 41,
   42, 43, 44, 45, 46, 47, 48, 49, 50, 51, 55, 56, 57, 58, 59, 60, 61, 62, 63, 64,
   65, 66, 67, 68, 69, 70, 71, 72, 74, 75, 76, 77, 78, 79, 83, 84, 85, 86, 87, 88,
   89, 90, 93, 94, 99, 101, 104, 105, 106, 107, 108, 110, 111, 112, 113, 114, 115, 116, 117, 118,
   119, 120, 121, 122, 123, 124, 125, 126, 127, 128, 129, 130, 131, 132, 133, 134, 135, 136, 137, 138,
   139, 140, 141, 142, 143, 144, 145, 146, 147, 148, 149, 150, 151, 152, 153, 154, 155, 156, 157, 158,
   159, 160, 161, 162, 163, 164, 165, 166, 167, 168, 169, 170, 171, 172, 173, 174, 175, 176, 177, 178,
   179, 180, 181, 182, 183, 184, 185, 186, 187, 188, 189, 190, 191, 192, 193, 194, 195, 196, 197, 198,
   199, 200, 201, 202, 203, 204, 205, 206, 207, 208, 209, 210, 211, 212, 213, 214, 215, 216, 217, 218,
   219, 220, 221, 222, 223, 224, 225, 226, 227, 228, 229, 230, 231, 232, 233, 234, 235, 236, 237, 238,
   239, 240, 241, 242, 243, 244, 245, 246, 247, 248, 249, 250, 251, 252, 253, 254, 255, 256, 257, 258,
   259, 260, 261, 262, 263, 264, 265, 266, 267, 268, 269, 270, 271, 272, 273, 274]

/-- Models /repo/sqlparser/parser.go 3062-3071, `yyTok3`, two entries at a time; the 0 that ends the
table is left out (no code is 0). -/
def yyTok3 : List (Nat × Nat) :=
  [(57600, 275), (57601, 276), (57602, 277), (57603, 278), (57604, 279), (57605, 280), (57606, 281),
   (57607, 282), (57608, 283), (57609, 284), (57610, 285), (57611, 286), (57612, 287), (57613, 288),
   (57614, 289), (57615, 290), (57616, 291), (57617, 292), (57618, 293), (57619, 294), (57620, 295),
   (57621, 296), (57622, 297), (57623, 298), (57624, 299), (57625, 300), (57626, 301), (57627, 302),
   (57628, 303), (57629, 304), (57630, 305), (57631, 306), (57632, 307), (57633, 308), (57634, 309),
   (57635, 310), (57636, 311), (57637, 312)]

/-- Models /repo/sqlparser/parser.go 789, `yyLast`. -/
def yyLast : Int := 14695

/-- Models /repo/sqlparser/parser.go 3112, `yyFlag`. -/
def yyFlag : Int := -1000

/-- Models /repo/sqlparser/parser.go 787, `yyPrivate`. -/
def yyPrivate : Nat := 57344

end Sqldef.Yy
