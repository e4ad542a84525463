/-
C06: partition tables round-trip for every company-prefix length.
-/
import Verif.Lemmas.Partition
import Verif.Model.Parsers

namespace Epc
open Spec

/-- The tables whose reference is a digit string of the complementary length, with the total number of digits of company prefix
and reference. -/
def paddedTables : List (List Row × Nat) :=
  [(SGTIN.table, 13), (SSCC.table, 17), (SGLN.table, 12), (GRAI.table, 12), (GDTI.table, 12), (SGCN.table, 12),
   (GSRN.table, 17), (GSRNP.table, 17), (ITIP.table, 13)]

/-- Every such table has a row for each company-prefix length from 6 to 12; company prefix and reference have the same total
number of digits, and the same total number of bits, in all its rows. -/
theorem C06_table_shape : ∀ p ∈ paddedTables, (∀ n, 6 ≤ n → n ≤ 12 → ∃ r ∈ p.1, r.L = n) ∧
    (∀ r ∈ p.1, r.L + r.K = p.2) ∧ ∀ r ∈ p.1, ∀ s ∈ p.1, r.M + r.N = s.M + s.N := by
  have h1 : ∀ p ∈ paddedTables, (∀ n : Fin 13, 6 ≤ n.val → ∃ r ∈ p.1, r.L = n.val) ∧
    (∀ r ∈ p.1, r.L + r.K = p.2) ∧ ∀ r ∈ p.1, ∀ s ∈ p.1, r.M + r.N = s.M + s.N := by decide +kernel
  intro p hp
  obtain ⟨a, b, c⟩ := h1 p hp
  exact ⟨fun n h6 h12 => a ⟨n, by omega⟩ h6, b, c⟩

theorem paddedTables_ok : ∀ p ∈ paddedTables, TableOk p.1 ∧ RefOk p.1 := by decide +kernel

/-- Digit strings of the lengths of a row round-trip, with leading zeros; the encoding is the three-bit partition value, `M` bits and
`N` bits; and whatever follows it is ignored. -/
theorem C06_partition_roundtrip (p : List Row × Nat) (hp : p ∈ paddedTables) (r : Row) (hr : r ∈ p.1) (C D : Str)
    (hC : Digits C) (hCl : C.length = r.L) (hD : Digits D) (hDl : D.length = r.K) :
    ∃ b, encodePartitionTable C D p.1 .plain = .ok b ∧ Bits b ∧ b.length = 3 + r.M + r.N ∧
      ∀ tail, decodePartitionTable (b ++ tail) p.1 .plain = .ok (C ++ '.' :: D) :=
  partition_plain (paddedTables_ok p hp).1 (paddedTables_ok p hp).2 hr hC hCl hD hDl

/-- The same starting from the lengths: any company prefix of 6 to 12 digits and a reference of the complementary length. -/
theorem C06_partition_roundtrip_lengths (p : List Row × Nat) (hp : p ∈ paddedTables) (C D : Str) (hC : Digits C) (hD : Digits D)
    (h6 : 6 ≤ C.length) (h12 : C.length ≤ 12) (hl : C.length + D.length = p.2) :
    ∃ b, encodePartitionTable C D p.1 .plain = .ok b ∧ Bits b ∧
      ∀ tail, decodePartitionTable (b ++ tail) p.1 .plain = .ok (C ++ '.' :: D) := by
  obtain ⟨h1, h2, _⟩ := C06_table_shape p hp
  obtain ⟨r, hr, hrl⟩ := h1 C.length h6 h12
  have := h2 r hr
  obtain ⟨b, a1, a2, _, a3⟩ := C06_partition_roundtrip p hp r hr C D hC hrl.symm hD (by omega)
  exact ⟨b, a1, a2, a3⟩

/-- GIAI-96 and CPI-96: the reference is a number written without superfluous leading zero that fits the field. -/
theorem C06_unpadded_roundtrip (t : List Row) (ht : t ∈ [GIAI.table96, CPI.table96]) (r : Row) (hr : r ∈ t) (C D : Str)
    (hC : Digits C) (hCl : C.length = r.L) (hD : Digits D) (hne : D ≠ [])
    (hz : ¬ (D.length > 1 ∧ D.head? = some '0')) (hlt : number D < 2 ^ r.N) :
    ∃ b, encodePartitionTable C D t .unpadded = .ok b ∧ Bits b ∧ b.length = 3 + r.M + r.N ∧
      ∀ tail, decodePartitionTable (b ++ tail) t .unpadded = .ok (C ++ '.' :: D) := by
  have hk : ∀ t ∈ [GIAI.table96, CPI.table96], TableOk t ∧ ∀ r ∈ t, r.K ≠ 0 := by decide +kernel
  exact partition_unpadded (hk t ht).1 hr ((hk t ht).2 r hr) hC hCl hD hne hz hlt

/-- GIAI-202: the reference is a canonical text of at most `K` characters. -/
theorem C06_string_roundtrip (r : Row) (hr : r ∈ GIAI.table202) (C raw : Str) (hC : Digits C) (hCl : C.length = r.L)
    (hraw : ∀ c ∈ raw, c ∈ gs82) (hl : raw.length ≤ r.K) :
    ∃ b, encodePartitionTable C (escape raw) GIAI.table202 .string = .ok b ∧ Bits b ∧ b.length = 3 + r.M + r.N ∧
      ∀ tail, decodePartitionTable (b ++ tail) GIAI.table202 .string = .ok (C ++ '.' :: escape raw) := by
  have hk : TableOk GIAI.table202 ∧ ∀ r ∈ GIAI.table202, 7 * r.K ≤ r.N := by decide +kernel
  have := hk.2 r hr
  exact partition_string hk.1 hr hC hCl hraw (by omega)

/-- CPI-var: the reference is a text over the GS1 character set 39 of at most `K` characters. -/
theorem C06_six_bit_roundtrip (r : Row) (hr : r ∈ CPI.tableVar) (C raw : Str) (hC : Digits C) (hCl : C.length = r.L)
    (hraw : ∀ c ∈ raw, c ∈ gs39) (hl : raw.length ≤ r.K) :
    ∃ b, encodePartitionTable C (escape39 raw) CPI.tableVar .sixBit = .ok b ∧ Bits b ∧
      b.length = 3 + r.M + (6 * raw.length + 6) ∧
      ∀ tail, decodePartitionTable (b ++ tail) CPI.tableVar .sixBit = .ok (C ++ '.' :: escape39 raw) := by
  have hk : TableOk CPI.tableVar ∧ ∀ r ∈ CPI.tableVar, r.N = 6 * r.K + 6 := by decide +kernel
  obtain ⟨b, h1, h2, h3, _, h4⟩ := partition_sixBit hk.1 hr hC hCl hraw hl (hk.2 r hr)
  exact ⟨b, h1, h2, h3, h4⟩

/-- The unpadded, string and six-bit tables also have one row per company-prefix length and constant totals. -/
theorem C06_other_shapes : ∀ p ∈ [(GIAI.table96, 25), (GIAI.table202, 30), (CPI.table96, 15), (CPI.tableVar, 30)],
    (∀ n : Fin 7, ∃ r ∈ p.1, r.L = n.val + 6) ∧ (∀ r ∈ p.1, r.L + r.K = p.2) ∧
    (p.1 ≠ CPI.tableVar → ∀ r ∈ p.1, ∀ s ∈ p.1, r.M + r.N = s.M + s.N) := by decide +kernel

/-- A company prefix and item reference with leading zeros; a 12-digit prefix with an empty location reference. -/
example : (encodePartitionTable (py "0614141") (py "012345") SGTIN.table .plain).bind (decodePartitionTable · SGTIN.table .plain) =
    .ok (py "0614141.012345") := by decide +kernel
example : (encodePartitionTable (py "061414112345") (py "") SGLN.table .plain).bind (decodePartitionTable · SGLN.table .plain) =
    .ok (py "061414112345.") := by decide +kernel

end Epc
