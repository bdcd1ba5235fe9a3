/* Runs every x86 intrinsic that /repo/src/aes_x86.rs, aesni_x2.rs and aesni_x4.rs use (except the casts, whose upper halves are
   undefined) on pseudo-random registers and prints the results as Lean examples about Verif/Model/IsaX86.lean.
   gcc -O1 -maes -mssse3 -msse4.1 -mavx2 -mvaes -mavx512f isa_x86.c && ./a.out > ../../lean/Verif/Properties/IsaHardware.lean */
#include <immintrin.h>
#include <stdio.h>
#include <stdint.h>
#include <string.h>

static uint64_t s = 0x9e3779b97f4a7c15ull;
static uint64_t rnd(void) { s ^= s << 13; s ^= s >> 7; s ^= s << 17; return s * 0x2545f4914f6cdd1dull; }
static void fill(uint8_t *p, int n) { for (int i = 0; i < n; i++) p[i] = rnd() >> 56; }
static void reg(const void *p, int n) {
  printf("(reg %d 0x", n);
  for (int i = n - 1; i >= 0; i--) printf("%02x", ((const uint8_t *)p)[i]);
  printf(")");
}
static void out(const void *p, int n) { printf(" = "); reg(p, n); printf(" := by decide +kernel\n"); }
#define LD1(p) _mm_loadu_si128((const void *)(p))
#define LD2(p) _mm256_loadu_si256((const void *)(p))
#define LD4(p) _mm512_loadu_si512((const void *)(p))
#define BIN(n, name, LD, ST, expr) do { uint8_t r[64]; __typeof__(LD(a)) x = LD(a), y = LD(b); ST((void *)r, expr); \
  printf("example : %s ", name); reg(a, n); printf(" "); reg(b, n); out(r, n); } while (0)
#define UN(n, m, name, LD, ST, expr) do { uint8_t r[64]; __typeof__(LD(a)) x = LD(a); ST((void *)r, expr); \
  printf("example : %s ", name); reg(a, n); out(r, m); } while (0)
#define MIX(n1, n2, m, name, L1, L2, ST, expr) do { uint8_t r[64]; __typeof__(L1(a)) x = L1(a); __typeof__(L2(b)) y = L2(b); \
  ST((void *)r, expr); printf("example : %s ", name); reg(a, n1); printf(" "); reg(b, n2); out(r, m); } while (0)
#define NUM(n, name, LD, expr, fmt) do { __typeof__(LD(a)) x = LD(a), y = LD(b); unsigned v = expr; \
  printf("example : %s ", name); reg(a, n); printf(" "); reg(b, n); printf(" = " fmt " := by decide +kernel\n", v); } while (0)
#define S1 _mm_storeu_si128
#define S2 _mm256_storeu_si256
#define S4 _mm512_storeu_si512

int main(int argc, char **argv) {
  int full = argc > 1;   /* with an argument: six rounds of everything (eleven minutes to check) */
  printf("import Verif.Model.IsaX86\n"
  "/-!\n"
  "Cross-checks of the trusted instruction semantics of `Verif/Model/IsaX86.lean` against an x86-64 processor: written by\n"
  "tools/isa/isa_x86.c, which runs each intrinsic the crate uses on pseudo-random registers. These are tests of the trusted base,\n"
  "not proofs of properties. A register is printed as a number, byte 0 in the lowest eight bits.\n"
  "-/\n"
  "namespace Aes.IsaHardware\nopen Rust IsaX86\n\n"
  "/-- A register of `n` bytes. -/\n"
  "def reg (n x : Nat) : Vector U8 n := Vector.ofFn fun i => BitVec.ofNat 8 (x / 256 ^ i.val)\n\n");
  for (int t = 0; t < 6; t++) {
    uint8_t a[64], b[64];
    fill(a, 64); fill(b, 64);
    if (!full && t != 0 && t != 3) continue;
    int heavy = full || t == 0;
    if (t == 1) memset(b, 0, 64);
    if (t == 2) memset(a, 0xff, 64);
    if (t == 3) for (int i = 0; i < 64; i++) b[i] = (i / 8) % 2 ? a[i] : (uint8_t)~a[i];
    if (t == 4) memcpy(b, a, 64);
    BIN(16, "and", LD1, S1, _mm_and_si128(x, y));
    BIN(16, "or", LD1, S1, _mm_or_si128(x, y));
    BIN(16, "xor", LD1, S1, _mm_xor_si128(x, y));
    NUM(16, "testz", LD1, _mm_testz_si128(x, y), "%u");
    BIN(16, "aesenc", LD1, S1, _mm_aesenc_si128(x, y));
    BIN(16, "aesenclast", LD1, S1, _mm_aesenclast_si128(x, y));
    BIN(16, "aesdec", LD1, S1, _mm_aesdec_si128(x, y));
    BIN(16, "aesdeclast", LD1, S1, _mm_aesdeclast_si128(x, y));
    UN(16, 16, "aesimc", LD1, S1, _mm_aesimc_si128(x));
    if (heavy) UN(16, 16, "aeskeygenassist 0x00#8", LD1, S1, _mm_aeskeygenassist_si128(x, 0x00));
    if (heavy) UN(16, 16, "aeskeygenassist 0x01#8", LD1, S1, _mm_aeskeygenassist_si128(x, 0x01));
    if (full) UN(16, 16, "aeskeygenassist 0x02#8", LD1, S1, _mm_aeskeygenassist_si128(x, 0x02));
    if (full) UN(16, 16, "aeskeygenassist 0x04#8", LD1, S1, _mm_aeskeygenassist_si128(x, 0x04));
    if (full) UN(16, 16, "aeskeygenassist 0x08#8", LD1, S1, _mm_aeskeygenassist_si128(x, 0x08));
    if (full) UN(16, 16, "aeskeygenassist 0x10#8", LD1, S1, _mm_aeskeygenassist_si128(x, 0x10));
    if (full) UN(16, 16, "aeskeygenassist 0x20#8", LD1, S1, _mm_aeskeygenassist_si128(x, 0x20));
    if (full) UN(16, 16, "aeskeygenassist 0x40#8", LD1, S1, _mm_aeskeygenassist_si128(x, 0x40));
    if (full) UN(16, 16, "aeskeygenassist 0x80#8", LD1, S1, _mm_aeskeygenassist_si128(x, 0x80));
    if (full) UN(16, 16, "aeskeygenassist 0x1b#8", LD1, S1, _mm_aeskeygenassist_si128(x, 0x1b));
    if (heavy) UN(16, 16, "aeskeygenassist 0x36#8", LD1, S1, _mm_aeskeygenassist_si128(x, 0x36));
    UN(16, 16, "bslli 4", LD1, S1, _mm_bslli_si128(x, 4));
    UN(16, 16, "bslli 8", LD1, S1, _mm_bslli_si128(x, 8));
    UN(16, 16, "shuffle_epi32 0xff#8", LD1, S1, _mm_shuffle_epi32(x, 0xff));
    UN(16, 16, "shuffle_epi32 0x55#8", LD1, S1, _mm_shuffle_epi32(x, 0x55));
    UN(16, 16, "shuffle_epi32 0xaa#8", LD1, S1, _mm_shuffle_epi32(x, 0xaa));
    BIN(16, "unpacklo_epi64", LD1, S1, _mm_unpacklo_epi64(x, y));
    BIN(16, "alignr_epi8 8", LD1, S1, _mm_alignr_epi8(x, y, 8));
    BIN(32, "and", LD2, S2, _mm256_and_si256(x, y));
    BIN(32, "or", LD2, S2, _mm256_or_si256(x, y));
    BIN(32, "xor", LD2, S2, _mm256_xor_si256(x, y));
    NUM(32, "testz", LD2, _mm256_testz_si256(x, y), "%u");
    if (heavy) BIN(32, "lanewise2 aesenc", LD2, S2, _mm256_aesenc_epi128(x, y));
    if (heavy) BIN(32, "lanewise2 aesenclast", LD2, S2, _mm256_aesenclast_epi128(x, y));
    if (heavy) BIN(32, "lanewise2 aesdec", LD2, S2, _mm256_aesdec_epi128(x, y));
    if (heavy) BIN(32, "lanewise2 aesdeclast", LD2, S2, _mm256_aesdeclast_epi128(x, y));
    MIX(16, 16, 32, "setr_m128i", LD1, LD1, S2, _mm256_setr_m128i(x, y));
    UN(16, 32, "broadcastsi128_si256", LD1, S2, _mm256_broadcastsi128_si256(x));
    UN(32, 16, "extracti128_si256 0", LD2, S1, _mm256_extracti128_si256(x, 0));
    UN(32, 16, "extracti128_si256 1", LD2, S1, _mm256_extracti128_si256(x, 1));
    MIX(32, 16, 32, "inserti128_si256_1", LD2, LD1, S2, _mm256_inserti128_si256(x, y, 1));
    BIN(64, "and", LD4, S4, _mm512_and_si512(x, y));
    BIN(64, "or", LD4, S4, _mm512_or_si512(x, y));
    BIN(64, "xor", LD4, S4, _mm512_xor_si512(x, y));
    if (heavy) BIN(64, "lanewise4 aesenc", LD4, S4, _mm512_aesenc_epi128(x, y));
    if (heavy) BIN(64, "lanewise4 aesenclast", LD4, S4, _mm512_aesenclast_epi128(x, y));
    if (heavy) BIN(64, "lanewise4 aesdec", LD4, S4, _mm512_aesdec_epi128(x, y));
    if (heavy) BIN(64, "lanewise4 aesdeclast", LD4, S4, _mm512_aesdeclast_epi128(x, y));
    MIX(64, 32, 64, "inserti64x4_1", LD4, LD2, S4, _mm512_inserti64x4(x, y, 1));
    UN(16, 64, "broadcast_i32x4", LD1, S4, _mm512_broadcast_i32x4(x));
    UN(32, 64, "broadcast_i64x4", LD2, S4, _mm512_broadcast_i64x4(x));
    UN(64, 16, "extracti32x4_epi32 0", LD4, S1, _mm512_extracti32x4_epi32(x, 0));
    UN(64, 16, "extracti32x4_epi32 1", LD4, S1, _mm512_extracti32x4_epi32(x, 1));
    UN(64, 16, "extracti32x4_epi32 2", LD4, S1, _mm512_extracti32x4_epi32(x, 2));
    UN(64, 16, "extracti32x4_epi32 3", LD4, S1, _mm512_extracti32x4_epi32(x, 3));
    UN(64, 32, "extracti64x4_epi64 0", LD4, S2, _mm512_extracti64x4_epi64(x, 0));
    UN(64, 32, "extracti64x4_epi64 1", LD4, S2, _mm512_extracti64x4_epi64(x, 1));
    NUM(64, "cmpeq_epi64_mask", LD4, _mm512_cmpeq_epi64_mask(x, y), "%u#8");
    NUM(64, "test_epi64_mask", LD4, _mm512_test_epi64_mask(x, y), "%u#8");
    printf("\n");
  }
  { uint8_t r[64];
    S1((void *)r, _mm_setzero_si128()); printf("example : setzero"); out(r, 16);
    S2((void *)r, _mm256_setzero_si256()); printf("example : setzero"); out(r, 32);
    S4((void *)r, _mm512_setzero_si512()); printf("example : setzero"); out(r, 64);
    S1((void *)r, _mm_set1_epi64x(-1)); printf("example : set1_minus1"); out(r, 16);
    S2((void *)r, _mm256_set1_epi64x(-1)); printf("example : set1_minus1"); out(r, 32);
    S4((void *)r, _mm512_set1_epi64(-1)); printf("example : set1_minus1"); out(r, 64); }
  printf("end Aes.IsaHardware\n");
  return 0;
}
