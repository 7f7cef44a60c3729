import Verif.Cert.Entities
import Verif.ParserProps

/-!
Properties of the entity parsers (C46): `entityReports M l buf` are the entity callbacks of a parse function called with
`count` 0, as triples of the entity, its start and its end.
-/

namespace Ohcount.Ragel
open Gram Cert

/-- For all 94 modelled entity parsers: the reported ranges are not empty, in order, do not overlap, and lie inside the buffer. -/
theorem C46_in_order (S : Scanner) (hS : S ∈ entityScanners) (l : Leftover) (buf : List Byte) :
    InOrder 0 (entityReports S.machine l buf) ∧ ∀ r ∈ entityReports S.machine l buf, r.2.2 ≤ buf.length := by
  have h := run_inv (entityHold S hS).1 (buf := buf) (fuel buf.length) _ (init_inv l _)
  refine ⟨h.order, fun r hr => Nat.le_trans (h.ends r hr) ?_⟩
  unfold Cfg.base
  split
  · exact h.le
  · rename_i hq
    exact Nat.le_trans (Nat.le_of_lt (h.ts hq)) h.le

/-- At every moment of the parse, so also if the callback never returns. -/
theorem C46_always (S : Scanner) (hS : S ∈ entityScanners) (l : Leftover) (buf : List Byte) (k : Nat) :
    InOrder 0 (S.machine.run buf k (initCfg l)).d.ents :=
  (run_inv (entityHold S hS).1 k _ (init_inv l buf.length)).order

/-- 90 of them read the whole buffer and stop there, whatever bytes it has. -/
theorem C46_reads_all (S : Scanner) (hS : S ∈ forwardEntities) (l : Leftover) (buf : List Byte) :
    S.machine.step buf (exec S.machine l buf) = none ∧ (exec S.machine l buf).p = buf.length := by
  obtain ⟨h1, h2⟩ := forward_noHold S hS
  have hs := exec_entity h1 l buf
  have hm : Matched (exec S.machine l buf) := run_matched h2 _ _ fun h => absurd rfl h
  have hi := run_inv (holdOk_of_noHold h1) (buf := buf) (fuel buf.length) _ (init_inv l _)
  exact ⟨hs, Nat.le_antisymm hi.le (stop_end h2 hm hs).2⟩

/-- For eight of them the reported ranges are the whole buffer. -/
theorem C46_tile (S : Scanner) (hS : S ∈ tilingEntities) (l : Leftover) (buf : List Byte) :
    Tile 0 (entityReports S.machine l buf) buf.length := by
  obtain ⟨h1, h2, h3⟩ := tiling_ecb S hS
  have hs := exec_entity h1 l buf
  have hm : Matched (exec S.machine l buf) := run_matched h2 _ _ fun h => absurd rfl h
  have hi := run_inv (holdOk_of_noHold h1) (buf := buf) (fuel buf.length) _ (init_inv l _)
  have ht : TInv S.machine (exec S.machine l buf) :=
    run_tile (holdOk_of_noHold h1) h3 _ _ (init_inv l _) ⟨rfl, fun k h => by cases h⟩
  obtain ⟨e1, e2⟩ := stop_end h2 hm hs
  have hb : (exec S.machine l buf).base = buf.length := by
    unfold Cfg.base
    rw [if_pos e1]
    exact Nat.le_antisymm hi.le e2
  have := ht.tile
  rwa [hb] at this

example : Python.python_entity ∈ forwardEntities ∧ C.c_entity ∈ tilingEntities := by
  constructor
  · exact List.mem_of_getElem? (i := 65) rfl
  · exact List.mem_of_getElem? (i := 0) rfl

/-- The character that opens a string which is never closed is skipped without a report. -/
example : entityReports Python.python_entity.machine {} (bytes "'a' #b\n\"") = [(.own 0, 3, 4), (.own 1, 4, 6), (.own 0, 6, 7)] ∧
    (exec Python.python_entity.machine {} (bytes "'a' #b\n\"")).p = 8 := by
  constructor <;> decide +kernel

example : entityReports C.c_entity.machine {} (bytes "/* a */ x\"") =
    [(.own 1, 0, 7), (.own 0, 7, 8), (.own 8, 8, 9), (.own 8, 9, 10)] := by
  decide +kernel

end Ohcount.Ragel
