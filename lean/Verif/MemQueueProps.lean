import Verif.MemQueueFree
import Verif.EntityProps
import Verif.EmbedProps
/-
C81: histories of parses use the queue of callbacks safely, and make the callbacks of `Ragel.lean` and `RagelEmbed.lean`.
C82: what parses leave allocated.
-/

namespace Ohcount.Queue

open Ragel Gram Cert

/-- A call of a parse function: of a parser without embedded languages, with the scanner it runs, or of one with embedded languages, with
the machine it starts with (`P.line` or `P.entity`). -/
inductive Call where
  | plain (M : Machine) (buf : List Byte)
  | mixed (P : EParser) (m : Nat) (buf : List Byte)

/-- The callbacks of a call: for lines and for entities, with the number of the language. -/
structure Made where
  lines : List ERep
  ents : List (Nat × Ent × Nat × Nat)
  deriving DecidableEq, Repr

/-- The callbacks of a call according to `Ragel.lean` and `RagelEmbed.lean`, the static variables being zero. -/
def Call.made : Call → Made
  | .plain M buf => ⟨(lineReports M {} buf).map fun r => ⟨0, r.kind, r.s, r.e⟩, (entityReports M {} buf).map fun r => (0, r)⟩
  | .mixed P m buf =>
    let x := (eexec P.multi m {} buf).x
    let y := x.upd 0 (x.d.processLastLine buf.length)
    ⟨pairUp y.langs y.d.out, List.zip x.elangs x.d.ents⟩

/-- What a call, as the first of the process, leaves in the queue. -/
def Call.leaves : Call → List Rep
  | .plain M buf => (exec M {} buf).d.queue
  | .mixed P m buf => (eexec P.multi m {} buf).x.d.queue

/-- `last_line_start`, `last_line_contains_code` and `last_whole_line_comment`, src/parser_macros.h:399-411. -/
structure Rest where
  lastLs : Option Nat := none
  lastLcc : Bool := false
  lastWlc : Bool := false

def Rest.left (r : Rest) : Leftover := { lastLs := r.lastLs, lastLcc := r.lastLcc, lastWlc := r.lastWlc }

/-- A call of a parse function with the queue in memory. -/
def runCall (al : Alloc) (c : Call) (r : Rest) : QM (Made × Rest) :=
  match c with
  | .plain M buf => do
    let c ← run al M buf (fuel buf.length) (initCfg r.left)
    pure (⟨((c.d.processLastLine buf.length).out).map fun r => ⟨0, r.kind, r.s, r.e⟩, c.d.ents.map fun r => (0, r)⟩,
      ⟨c.d.lastLs, c.d.lastLcc, c.d.lastWlc⟩)
  | .mixed P m buf => do
    let c ← erun al P.multi buf (efuel buf.length) (einit m ⟨r.left, []⟩)
    let y := c.x.upd 0 (c.x.d.processLastLine buf.length)
    pure (⟨pairUp y.langs y.d.out, List.zip c.x.elangs c.x.d.ents⟩, ⟨c.x.d.lastLs, c.x.d.lastLcc, c.x.d.lastWlc⟩)

/-- A sequence of calls. -/
def history (al : Alloc) : List Call → Rest → QM (List Made)
  | [], _ => pure []
  | c :: cs, r => do
    let x ← runCall al c r
    let xs ← history al cs x.2
    pure (x.1 :: xs)

/-- The calls of a process: the static variables are zero, and the memory is `m0`. -/
def process (al : Alloc) (m0 : Ptr → Option Block) (calls : List Call) : Option (List Made × Heap) := history al calls {} ⟨m0, 0, 0⟩

theorem runCall_ok {al : Alloc} (hal : Fresh al) {m0 : Ptr → Option Block} {items : List Item} (c : Call) (r : Rest) :
    Gives m0 items (runCall al c r) fun it x => x.1 = c.made ∧
      (it.map (·.2) = items.map (·.2) ∧ c.leaves = [] ∨ it.map (·.2) = c.leaves) := by
  cases c with
  | plain M buf =>
    refine Gives.bind (run_ok hal M buf (fuel buf.length) (items := items) (initCfg r.left) rfl) ?_
    rintro it c' ⟨h1, h2⟩
    have e : cfgQ (initCfg r.left) items = initCfg { r.left with queue := items.map (·.2) } := rfl
    rw [e] at h2
    have hr := rel_exec M { r.left with queue := items.map (·.2) } buf
    unfold exec at hr
    rw [← h2] at hr
    have hd : (cfgQ c' it).d = withQ c'.d it := rfl
    rw [hd] at hr
    refine Gives.pure ⟨?_, ?_⟩
    · have e1 : (c'.d.processLastLine buf.length).out = ((withQ c'.d it).processLastLine buf.length).out := by
        rw [processLastLine_q]; rfl
      have e2 : c'.d.ents = (withQ c'.d it).ents := rfl
      have h3 : ((withQ c'.d it).processLastLine buf.length).out = lineReports M {} buf ∧ (withQ c'.d it).ents = entityReports M {} buf := by
        constructor
        · unfold lineReports exec
          rcases (even_last _ buf.length).rel hr with h | ⟨_, _, h⟩
          · rw [h]
          · rw [h]; rfl
        · unfold entityReports exec
          rcases hr with h | ⟨_, _, h⟩
          · rw [h]
          · rw [h]; rfl
      rw [e1, e2, h3.1, h3.2]
      rfl
    · have e3 : it.map (·.2) = (withQ c'.d it).queue := rfl
      rw [e3]
      rcases hr with h | ⟨_, h0, h⟩
      · right; rw [h]; rfl
      · left; rw [h]; exact ⟨rfl, h0⟩
  | mixed P m buf =>
    refine Gives.bind (erun_ok hal P.multi buf (efuel buf.length) (items := items) (einit m ⟨r.left, []⟩) ⟨rfl, rfl⟩) ?_
    rintro it c' ⟨h1, h2⟩
    have e : ecfgQ (einit m ⟨r.left, []⟩) items = einit m ⟨{ r.left with queue := items.map (·.2) }, items.map (·.1)⟩ := rfl
    rw [e] at h2
    have hr := rel_eexec P.multi m ⟨{ r.left with queue := items.map (·.2) }, items.map (·.1)⟩ buf
    unfold eexec at hr
    rw [← h2] at hr
    have hd : (ecfgQ c' it).x = withE c'.x it := rfl
    rw [hd] at hr
    refine Gives.pure ⟨?_, ?_⟩
    · have e0 : (withE c'.x it).upd 0 ((withE c'.x it).d.processLastLine buf.length) =
          withE (c'.x.upd 0 (c'.x.d.processLastLine buf.length)) it := by
        have : (withE c'.x it).d.processLastLine buf.length = withQ (c'.x.d.processLastLine buf.length) it := processLastLine_q _ _ _
        rw [this]
        have hq : (c'.x.d.processLastLine buf.length).queue = [] := by
          rw [← h1.1]
          unfold Data.processLastLine
          split
          · split <;> rw [emitNow_queue]
          · rfl
        exact (upd_q' h1 hq).2.symm
      have h3 := (even_upd (even_last _ buf.length) (fun _ => 0) fun _ => rfl).rel hr
      dsimp only at h3
      rw [e0] at h3
      have e1 : ∀ x, (withE x it).langs = x.langs ∧ (withE x it).d.out = x.d.out ∧ (withE x it).elangs = x.elangs ∧ (withE x it).d.ents = x.d.ents :=
        fun _ => ⟨rfl, rfl, rfl, rfl⟩
      have h4 : ∀ {l : ELeft} {x y : EData}, ERel l x y → x.langs = y.langs ∧ x.d.out = y.d.out ∧ x.elangs = y.elangs ∧ x.d.ents = y.d.ents := by
        intro l x y h
        rcases h with rfl | ⟨_, rfl⟩
        · exact ⟨rfl, rfl, rfl, rfl⟩
        · exact ⟨rfl, rfl, rfl, rfl⟩
      obtain ⟨a1, a2, _, _⟩ := h4 h3
      obtain ⟨_, _, a3, a4⟩ := h4 hr
      rw [(e1 _).1] at a1
      rw [(e1 _).2.1] at a2
      rw [(e1 _).2.2.1] at a3
      rw [(e1 _).2.2.2] at a4
      unfold Call.made eexec
      dsimp only
      rw [a1, a2, a3, a4]
    · have e3 : it.map (·.2) = (withE c'.x it).d.queue := rfl
      rw [e3]
      rcases hr with h | ⟨⟨_, h0, _⟩, h⟩
      · right; rw [h]; rfl
      · left; rw [h]; exact ⟨rfl, h0⟩

theorem history_ok {al : Alloc} (hal : Fresh al) {m0 : Ptr → Option Block} : ∀ (calls : List Call) (r : Rest) (items : List Item),
    Gives m0 items (history al calls r) fun it x => x = calls.map Call.made ∧
      (it.map (·.2) = items.map (·.2) ∨ ∃ c ∈ calls, it.map (·.2) = c.leaves)
  | [], _, _ => Gives.pure ⟨rfl, .inl rfl⟩
  | c :: cs, r, items => by
    refine Gives.bind (runCall_ok hal c r) ?_
    rintro it ⟨x, r'⟩ ⟨rfl, h2⟩
    refine Gives.bind (history_ok hal cs r' it) ?_
    rintro it' xs ⟨rfl, h3⟩
    refine Gives.pure ⟨rfl, ?_⟩
    rcases h3 with h3 | ⟨c', hc', h3⟩
    · rcases h2 with h2 | h2
      · exact .inl (h3.trans h2.1)
      · exact .inr ⟨c, List.mem_cons_self, h3.trans h2⟩
    · exact .inr ⟨c', List.mem_cons_of_mem _ hc', h3⟩

/-! ### C81 -/

/-- Every sequence of parses runs to its end without using memory that is not allocated; its callbacks are those of `Ragel.lean` and
`RagelEmbed.lean`; and nothing but the queue has changed in memory: were it freed, memory would be as it was. -/
theorem C81_safe {al : Alloc} (hal : Fresh al) {m0 : Ptr → Option Block} (hm : Finite m0) (calls : List Call) :
    ∃ h, process al m0 calls = some (calls.map Call.made, h) ∧ freeQueue h = some ((), ⟨m0, 0, 0⟩) := by
  obtain ⟨x, h, it, e, hh, rfl, _⟩ := history_ok hal calls {} [] ⟨m0, 0, 0⟩ (Holds.nil hm)
  exact ⟨h, e, freeQueue_ok hh⟩

/-- The callbacks of the calls are those that the other theorems are about. -/
theorem C81_reports : (∀ (P : Parser) (buf : List Byte), (Call.plain P.line.machine buf).made.lines =
      (lineReports P.line.machine {} buf).map fun r => ⟨0, r.kind, r.s, r.e⟩) ∧
    ∀ (P : EParser) (buf : List Byte), (Call.mixed P P.line buf).made.lines = P.reports {} buf ∧
      (Call.mixed P P.entity buf).made.ents = P.entityReports {} buf := ⟨fun _ _ => rfl, fun _ _ => ⟨rfl, rfl⟩⟩

/-- There are such allocators. -/
theorem exists_fresh : ∃ al : Alloc, Fresh al := by
  classical
  refine ⟨fun m => if h : ∃ a, a ≠ 0 ∧ m a = none then h.choose else 0, fun m hm => ?_⟩
  have h : ∃ a : Ptr, a ≠ 0 ∧ m a = none := by
    obtain ⟨n, hn⟩ := hm
    exact ⟨n + 1, Nat.succ_ne_zero n, hn (n + 1) (Nat.le_succ n)⟩
  dsimp only
  rw [dif_pos h]
  exact h.choose_spec

/-- A Ruby file with an unclosed string, and then one with a closed one: the second call frees what the first left, and makes all its own
callbacks. -/
example (al : Alloc) (hal : Fresh al) : ∃ h, process al (fun _ => none) [.plain parse_ruby.line.machine (bytes "x 'a\nb\n"),
      .plain parse_ruby.line.machine (bytes "# a\n'b\nc'\n")] =
    some ([⟨[⟨0, .lcode, 0, 5⟩, ⟨0, .lcode, 5, 7⟩], []⟩, ⟨[⟨0, .lcomment, 0, 4⟩, ⟨0, .lcode, 4, 7⟩, ⟨0, .lcode, 7, 10⟩], []⟩], h) := by
  obtain ⟨h, e, _⟩ := C81_safe hal ⟨0, fun _ _ => rfl⟩ [.plain parse_ruby.line.machine (bytes "x 'a\nb\n"),
      .plain parse_ruby.line.machine (bytes "# a\n'b\nc'\n")]
  refine ⟨h, e.trans ?_⟩
  have : List.map Call.made [.plain parse_ruby.line.machine (bytes "x 'a\nb\n"), .plain parse_ruby.line.machine (bytes "# a\n'b\nc'\n")] =
      [⟨[⟨0, .lcode, 0, 5⟩, ⟨0, .lcode, 5, 7⟩], []⟩, ⟨[⟨0, .lcomment, 0, 4⟩, ⟨0, .lcode, 4, 7⟩, ⟨0, .lcode, 7, 10⟩], []⟩] := by
    decide +kernel
  rw [this]

/-! ### C82 -/

/-- The calls of the program: of a parser of the table, for lines or for entities. -/
def Call.known : Call → Prop
  | .plain M _ => (∃ P ∈ parsers, M = P.line.machine) ∨ ∃ S ∈ entityScanners, M = S.machine
  | .mixed P m _ => P ∈ embParsers ∧ (m = P.line ∨ m = P.entity)

/-- After every sequence of parses memory is as before. -/
def C82_full : Prop := ∀ (al : Alloc), Fresh al → ∀ m0 : Ptr → Option Block, Finite m0 → ∀ calls : List Call, (∀ c ∈ calls, c.known) →
  ∀ made h, process al m0 calls = some (made, h) → h.mem = m0

/-- The addresses at which memory has changed. -/
theorem Holds.blocks {m0 : Ptr → Option Block} {h : Heap} {items : List Item} (hh : Holds m0 h items) :
    ∃ l : List Ptr, l.Nodup ∧ l.length = items.length ∧ (∀ a, a ∈ l ↔ h.mem a ≠ m0 a) ∧ ∀ a ∈ l, m0 a = none := by
  obtain ⟨l, he, hc, hn, _, h0, hr, _⟩ := hh
  refine ⟨l.map (·.1), hn, by rw [← he]; simp, fun a => ⟨fun ha => ?_, fun ha => ?_⟩, h0⟩
  · have : ∀ {l : List (Ptr × Item)} {p : Ptr}, Chain h.mem p l → ∀ b ∈ l.map (·.1), h.mem b ≠ none := by
      intro l
      induction l with
      | nil => intro p _ b hb; cases hb
      | cons x t ih =>
        rintro p ⟨_, _, n, h3, h4⟩ b hb
        rcases List.mem_cons.1 hb with rfl | hb
        · rw [h3]; simp
        · exact ih h4 b hb
    rw [h0 a ha]
    exact this hc a ha
  · exact Classical.byContradiction fun hna => ha (hr a hna)

/-- What a sequence of parses leaves allocated does not add up: it is at most what one of them leaves in the queue. -/
theorem C82_oneQueue_partial {al : Alloc} (hal : Fresh al) {m0 : Ptr → Option Block} (hm : Finite m0) (calls : List Call) :
    ∃ made h, process al m0 calls = some (made, h) ∧ ∃ l : List Ptr, l.Nodup ∧ (∀ a, a ∈ l ↔ h.mem a ≠ m0 a) ∧ (∀ a ∈ l, m0 a = none) ∧
      (l = [] ∨ ∃ c ∈ calls, l.length = c.leaves.length) := by
  obtain ⟨x, h, it, e, hh, rfl, h2⟩ := history_ok hal calls {} [] ⟨m0, 0, 0⟩ (Holds.nil hm)
  obtain ⟨l, hn, hl, ha, h0⟩ := hh.blocks
  refine ⟨_, h, e, l, hn, ha, h0, ?_⟩
  rcases h2 with h2 | ⟨c, hc, h2⟩
  · left
    have : it.length = 0 := by simpa using congrArg List.length h2
    exact List.length_eq_zero_iff.1 (hl.trans this)
  · right
    refine ⟨c, hc, hl.trans ?_⟩
    simpa using congrArg List.length h2

/-- The call is one of a parser that has no action `enqueue`. -/
def Call.quiet : Call → Prop
  | .plain M _ => ∃ S : Scanner, M = S.machine ∧ (S.pats.map (·.1)).all Plain = true
  | .mixed P _ _ => (P.machs.all fun S => (S.pats.map (·.1)).all Plain) = true

theorem quiet_leaves {c : Call} (h : c.quiet) : c.leaves = [] := by
  cases c with
  | plain M buf =>
    obtain ⟨S, rfl, hS⟩ := h
    exact clean_exec hS {} rfl buf
  | mixed P m buf => exact clean_eexec h m {} rfl buf

/-- Parsers without `enqueue` leave nothing behind. -/
theorem C82_nothingLeft_partial {al : Alloc} (hal : Fresh al) {m0 : Ptr → Option Block} (hm : Finite m0) (calls : List Call) (hq : ∀ c ∈ calls, c.quiet) :
    ∃ made h, process al m0 calls = some (made, h) ∧ h.mem = m0 := by
  obtain ⟨made, h, e, l, _, ha, _, hl⟩ := C82_oneQueue_partial hal hm calls
  refine ⟨made, h, e, ?_⟩
  have : l = [] := by
    rcases hl with hl | ⟨c, hc, hl⟩
    · exact hl
    · rw [quiet_leaves (hq c hc)] at hl
      exact List.length_eq_zero_iff.1 hl
  subst this
  exact funext fun a => Classical.byContradiction fun hne => by cases (ha a).2 hne

/-- These are the entity scanners of all parsers without embedded languages, the line scanners of 101 of the 111 of them, and 7 of the 13
parsers with embedded languages. -/
theorem C82_quiet : (∀ S ∈ entityScanners, ∀ buf, (Call.plain S.machine buf).quiet) ∧
    (∀ P ∈ parsers, P.name ∉ ["parse_cmake", "parse_crystal", "parse_grace", "parse_jam", "parse_limbo", "parse_lua", "parse_php",
      "parse_powershell", "parse_ruby", "parse_shell"] → ∀ buf, (Call.plain P.line.machine buf).quiet) ∧
    ∀ P ∈ embParsers, P.name ∈ ["parse_html", "parse_mxml", "parse_mptex", "parse_jsp", "parse_cshtml", "parse_cs_aspx", "parse_vb_aspx"] →
      ∀ m buf, (Call.mixed P m buf).quiet := by
  have h1 : ∀ S ∈ entityScanners, (S.pats.map (·.1)).all Plain = true := by decide +kernel
  have h2 : ∀ P ∈ parsers, P.name ∉ ["parse_cmake", "parse_crystal", "parse_grace", "parse_jam", "parse_limbo", "parse_lua", "parse_php",
      "parse_powershell", "parse_ruby", "parse_shell"] → (P.line.pats.map (·.1)).all Plain = true := by decide +kernel
  have h3 : ∀ P ∈ embParsers, P.name ∈ ["parse_html", "parse_mxml", "parse_mptex", "parse_jsp", "parse_cshtml", "parse_cs_aspx", "parse_vb_aspx"] →
      (P.machs.all fun S => (S.pats.map (·.1)).all Plain) = true := by decide +kernel
  exact ⟨fun S hS _ => ⟨S, rfl, h1 S hS⟩, fun P hP hn _ => ⟨P.line, rfl, h2 P hP hn⟩, fun P hP hn _ _ => h3 P hP hn⟩

/-- One call leaves what it queued last and did not commit. -/
theorem C82_one {al : Alloc} (hal : Fresh al) {m0 : Ptr → Option Block} (hm : Finite m0) (c : Call) :
    ∃ h, process al m0 [c] = some ([c.made], h) ∧ ∃ l : List Ptr, l.Nodup ∧ (∀ a, a ∈ l ↔ h.mem a ≠ m0 a) ∧ l.length = c.leaves.length := by
  have key : Gives m0 [] (history al [c] {}) fun it x => x = [c.made] ∧ it.map (·.2) = c.leaves := by
    refine Gives.bind (runCall_ok hal c {}) ?_
    rintro it ⟨x, r'⟩ ⟨rfl, h2⟩
    refine Gives.bind (P := fun it' x => it' = it ∧ x = []) (Gives.pure ⟨rfl, rfl⟩) ?_
    rintro it' xs ⟨rfl, rfl⟩
    refine Gives.pure ⟨rfl, ?_⟩
    rcases h2 with ⟨h2, h3⟩ | h2
    · rw [h2, h3]; rfl
    · exact h2
  obtain ⟨x, h, it, e, hh, rfl, h2⟩ := key ⟨m0, 0, 0⟩ (Holds.nil hm)
  obtain ⟨l, hn, hl, ha, _⟩ := hh.blocks
  refine ⟨h, e, l, hn, ha, hl.trans ?_⟩
  simpa using congrArg List.length h2

/-- A string that is not closed stays in the queue: a Ruby file of two lines leaves one block. -/
theorem C82_negation : ¬ C82_full := by
  intro hf
  obtain ⟨al, hal⟩ := exists_fresh
  have hm : Finite fun _ : Ptr => (none : Option Block) := ⟨0, fun _ _ => rfl⟩
  obtain ⟨h, e, l, _, ha, hl⟩ := C82_one hal hm (.plain parse_ruby.line.machine (bytes "x 'a\nb\n"))
  have h1 : (Call.plain parse_ruby.line.machine (bytes "x 'a\nb\n")).leaves = [⟨.lcode, 0, 5⟩] := by decide +kernel
  have hk : parse_ruby ∈ parsers := by simp [parsers]
  have := hf al hal _ hm _ (by
    intro c hc
    rw [List.mem_singleton.1 hc]
    exact .inl ⟨parse_ruby, hk, rfl⟩) _ h e
  rw [h1] at hl
  cases l with
  | nil => cases hl
  | cons a t => exact (ha a).1 List.mem_cons_self (congrFun this a)

end Ohcount.Queue
