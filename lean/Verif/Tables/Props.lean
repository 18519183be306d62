import Verif.Tables.Data.Cdp1802
import Verif.Tables.Data.F3850
import Verif.Tables.Data.I8048
import Verif.Tables.Data.I8051
import Verif.Tables.Data.I8080
import Verif.Tables.Data.I8086
import Verif.Tables.Data.I8096
import Verif.Tables.Data.Ins8060
import Verif.Tables.Data.Ins8070
import Verif.Tables.Data.Mc6800
import Verif.Tables.Data.Mc68000
import Verif.Tables.Data.Mc6805
import Verif.Tables.Data.Mc6809
import Verif.Tables.Data.Mn1610
import Verif.Tables.Data.Mos6502
import Verif.Tables.Data.Ns32000
import Verif.Tables.Data.Pdp11
import Verif.Tables.Data.Pdp8
import Verif.Tables.Data.Scn2650
import Verif.Tables.Data.Tlcs90
import Verif.Tables.Data.Tms32010
import Verif.Tables.Data.Tms7000
import Verif.Tables.Data.Tms9900
import Verif.Tables.Data.Z8
import Verif.Tables.Data.Z80
import Verif.Tables.Data.Z8000
import Verif.Tables.Data.Names
import Verif.Table.Props
/-
C25: the tables that come with the library are fit for the searches of C24, for every processor.
-/
namespace Libasm.Tables.Props
open Table

/-- The processors (and coprocessors) of the 26 families. -/
def families : List (List Cpu) := [
  Cdp1802.cpus,
  F3850.cpus,
  I8048.cpus,
  I8051.cpus,
  I8080.cpus,
  I8086.cpus,
  I8096.cpus,
  Ins8060.cpus,
  Ins8070.cpus,
  Mc6800.cpus,
  Mc68000.cpus,
  Mc6805.cpus,
  Mc6809.cpus,
  Mn1610.cpus,
  Mos6502.cpus,
  Ns32000.cpus,
  Pdp11.cpus,
  Pdp8.cpus,
  Scn2650.cpus,
  Tlcs90.cpus,
  Tms32010.cpus,
  Tms7000.cpus,
  Tms9900.cpus,
  Z8.cpus,
  Z80.cpus,
  Z8000.cpus]

theorem families_ok : ∀ f ∈ families, ∀ c ∈ f, ∀ p ∈ c.pages, PageOk p :=
  List.forall_mem_cons.mpr <| And.intro Cdp1802.cpus_ok <|
  List.forall_mem_cons.mpr <| And.intro F3850.cpus_ok <|
  List.forall_mem_cons.mpr <| And.intro I8048.cpus_ok <|
  List.forall_mem_cons.mpr <| And.intro I8051.cpus_ok <|
  List.forall_mem_cons.mpr <| And.intro I8080.cpus_ok <|
  List.forall_mem_cons.mpr <| And.intro I8086.cpus_ok <|
  List.forall_mem_cons.mpr <| And.intro I8096.cpus_ok <|
  List.forall_mem_cons.mpr <| And.intro Ins8060.cpus_ok <|
  List.forall_mem_cons.mpr <| And.intro Ins8070.cpus_ok <|
  List.forall_mem_cons.mpr <| And.intro Mc6800.cpus_ok <|
  List.forall_mem_cons.mpr <| And.intro Mc68000.cpus_ok <|
  List.forall_mem_cons.mpr <| And.intro Mc6805.cpus_ok <|
  List.forall_mem_cons.mpr <| And.intro Mc6809.cpus_ok <|
  List.forall_mem_cons.mpr <| And.intro Mn1610.cpus_ok <|
  List.forall_mem_cons.mpr <| And.intro Mos6502.cpus_ok <|
  List.forall_mem_cons.mpr <| And.intro Ns32000.cpus_ok <|
  List.forall_mem_cons.mpr <| And.intro Pdp11.cpus_ok <|
  List.forall_mem_cons.mpr <| And.intro Pdp8.cpus_ok <|
  List.forall_mem_cons.mpr <| And.intro Scn2650.cpus_ok <|
  List.forall_mem_cons.mpr <| And.intro Tlcs90.cpus_ok <|
  List.forall_mem_cons.mpr <| And.intro Tms32010.cpus_ok <|
  List.forall_mem_cons.mpr <| And.intro Tms7000.cpus_ok <|
  List.forall_mem_cons.mpr <| And.intro Tms9900.cpus_ok <|
  List.forall_mem_cons.mpr <| And.intro Z8.cpus_ok <|
  List.forall_mem_cons.mpr <| And.intro Z80.cpus_ok <|
  List.forall_mem_cons.mpr <| And.intro Z8000.cpus_ok nofun

/-- **C25, indexes.** In every page of every processor, the index has row numbers of the page, no
number twice, in the alphabetical order of the names of the rows; every row is in the index except
rows with the name and operands of another one that is. -/
theorem C25_indexes : ∀ f ∈ families, ∀ c ∈ f, ∀ p ∈ c.pages,
    (∀ i ∈ p.index, i < p.entries.length) ∧ p.index.Nodup ∧
    Spec.Sorted (p.index.filterMap fun i => (p.entries[i]?).map Row.name) ∧
    (∀ k a, p.entries[k]? = some a → k ∈ p.index ∨
      ∃ i ∈ p.index, ∃ b, p.entries[i]? = some b ∧ b.name = a.name ∧ b.operands = a.operands) :=
  fun f hf c hc p hp =>
    let h := families_ok f hf c hc p hp
    ⟨h.bounds, h.once, h.sorted, h.complete⟩

/-- Nothing is empty: 26 families, 72 processors and coprocessors; the first page of the CDP1802
has 91 rows. -/
example : families.length = 26 ∧ (families.map List.length).sum = 72 ∧
    Cdp1802.TABLE_CDP1802.length = 91 ∧ Cdp1802.INDEX_CDP1802.length = 91 := by decide

/-- **C25, mnemonic lookup is complete.** For every processor of the library and every mnemonic: the
row chosen by the assembler has that name, whatever the case it is written in, accepts the operands
and comes from the first page with such a row; the mnemonic is unknown only when no row of any page
has the name, and the operands are refused only when no row with the name accepts them. -/
theorem C25_lookup : ∀ f ∈ families, ∀ c ∈ f, ∀ (k : List Char) (accept : Page Row → Row → Bool),
    Spec.Name k →
    (∀ p a b, a.operands = b.operands → accept p a = accept p b) →
    ∃ r, searchName (fun a => strcasecmp k (Row.name a)) accept c.pages false = some r ∧
      ((∃ before page after a, c.pages = before ++ page :: after ∧ r = .ok (page.prefix_, a) ∧
          a ∈ page.entries ∧ Spec.Same a.name k ∧ accept page a = true ∧
          ∀ p ∈ before, ∀ b ∈ p.entries, Spec.Same b.name k → accept p b = false) ∨
       (r = .error .OPERAND_NOT_ALLOWED ∧
          (∃ p ∈ c.pages, ∃ a ∈ p.entries, Spec.Same a.name k) ∧
          ∀ p ∈ c.pages, ∀ a ∈ p.entries, Spec.Same a.name k → accept p a = false) ∨
       (r = .error .UNKNOWN_INSTRUCTION ∧
          ∀ p ∈ c.pages, ∀ a ∈ p.entries, ¬ Spec.Same a.name k)) := by
  intro f hf c hc k accept hk hacc
  have hok := families_ok f hf c hc
  refine Table.Props.C24_searchName c.pages Row.name k accept hk
    (fun p hp a ha => ((hok p hp).names a ha).1) (fun p hp => (hok p hp).bounds) ?_
    (fun p hp => (hok p hp).sorted)
  intro p hp a ha
  obtain ⟨n, hn⟩ := List.getElem?_of_mem ha
  rcases (hok p hp).complete n a hn with h | ⟨i, hi, b, hb, h1, h2⟩
  · exact ⟨n, h, a, hn, rfl, rfl⟩
  · refine ⟨i, hi, b, hb, ?_, hacc p b a h2⟩
    rw [h1]
    exact rfl

example : Spec.Name "scal".toList ∧
    (searchName (fun a => strcasecmp "scal".toList (Row.name a))
      (fun _ a => a.operands == ["E2", "M_REGN", "M_ADDR"]) Cdp1802.CDP1804_PAGES false).map
      Except.toOption =
      some (some (0x68, ⟨0x80, "SCAL".toList, ["E2", "M_REGN", "M_ADDR"]⟩)) := by decide +kernel

/-- **C25, directives, registers and conditions.** Every table searched directly by name is in
alphabetical order and has no name twice. -/
theorem C25_names : ∀ t ∈ Names.tables,
    Spec.Sorted t.names ∧ t.names.Pairwise fun a b => ¬ Spec.Same a b := by
  intro t ht
  have := tableB_sound t (List.all_eq_true.mp Names.tables_ok t ht)
  exact ⟨this.sorted, this.unique⟩

example : Names.tables.length = 55 ∧ Names.reg_z80_REG_ENTRIES ∈ Names.tables := by
  refine ⟨by decide, ?_⟩
  unfold Names.tables
  simp

/-- **C25, name lookup is complete.** In every directive, register and condition table, the search
for a name finds the row with that name, whatever the case, when there is one, and nothing
otherwise. -/
theorem C25_name_lookup : ∀ t ∈ Names.tables, ∀ k : List Char, Spec.Name k →
    (∀ n ∈ t.names, Spec.Same n k → binarySearch t.names (fun a => strcasecmp k a) = some (some n)) ∧
    ((∀ n ∈ t.names, ¬ Spec.Same n k) →
      binarySearch t.names (fun a => strcasecmp k a) = some none) := by
  intro t ht k hk
  have ok := tableB_sound t (List.all_eq_true.mp Names.tables_ok t ht)
  have h := Table.Props.C24_binary t.names id k hk (fun a ha => (ok.names a ha).1)
    (by rw [List.map_id]; exact ok.sorted)
  simp only [id] at h
  rw [h]
  constructor
  · intro n hn hs
    congr 1
    have hu := ok.unique
    generalize t.names = l at hn hu
    induction l with
    | nil => exact absurd hn nofun
    | cons a l ih =>
      rw [List.find?_cons]
      have hu := List.pairwise_cons.mp hu
      rcases List.mem_cons.mp hn with rfl | hn
      · rw [decide_eq_true hs]
      · have : ¬ Spec.Same a k := fun h => hu.1 n hn (Eq.trans h hs.symm)
        rw [decide_eq_false this]
        exact ih hn hu.2
  · intro hno
    congr 1
    rw [List.find?_eq_none]
    intro n hn
    simp [hno n hn]

example : binarySearch Names.reg_z80_REG_ENTRIES.names (fun a => strcasecmp "af'".toList a) =
    some (some "AF'".toList) := by decide +kernel

end Libasm.Tables.Props
