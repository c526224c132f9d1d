import Verif.HeapReadStmtProps
/-!
# The readers of scops in memory: theorems (C72)
-/

set_option linter.unusedSectionVars false

namespace Osl.Mem

variable [Allocator] {c : Cfg} {D : Type}

theorem ncloneLoop_all : ∀ {l acc r : Ifaces}, Ifaces.ncloneLoop none l acc = .ok r → r = acc ++ l
  | [], acc, r, h => by cases h; simp
  | i :: l, acc, r, h => by
    unfold Ifaces.ncloneLoop at h
    obtain ⟨a, h1, h⟩ := Out.bind_eq_ok.mp h
    obtain ⟨_, _, h1⟩ := Out.bind_eq_ok.mp h1
    cases h1
    have := ncloneLoop_all h
    simpa using this

theorem clone_same {l r : Ifaces} (h : Ifaces.clone l = .ok r) : r = l := by
  have := ncloneLoop_all (l := l) (acc := []) (r := r) h
  simpa using this

/-! ## What is lost (specification) -/

variable {L : Lib D} {O : DataMem D L.toEnv}

/-- The strings lost by the reading of the parameters. -/
def lostParameters (lost : Nat → Option Str → List Str) (registry : Ifaces) (n : Int) (file : Str) : List Str :=
  if n > 0 then lostFread lost registry file else []

/-- The strings lost by the reading of `n` statements. -/
def lostStmts (c : Cfg) (L : Lib D) (lost : Nat → Option Str → List Str) (registry : Ifaces) (prec : Int) : Nat → Str → List Str
  | 0, _ => []
  | n + 1, file => lostStmt c L.toEnv lost registry prec file ++ after (Stmts.pread c L registry prec file) fun _ file => lostStmts c L lost registry prec n file

/-- The strings lost by the reading of a scop after its start tag. -/
def tagsScop (c : Cfg) (L : Lib D) (lost : Nat → Option Str → List Str) (registry : Ifaces) (prec : Int) (file : Str) : List Str :=
  after (Scops.readLanguage file) fun _ file => after (Rel.pread c prec file) fun _ file => after (Util.fread_int file) fun np file =>
    lostParameters lost registry np file ++ after (Scops.readParameters L.toEnv registry np file) fun _ file => after (Util.fread_int file) fun ns file =>
      lostStmts c L lost registry prec ns.toNat file ++ after (Scops.readStmts c L registry prec ns.toNat file) fun _ file => lostRead L.toEnv lost registry file

/-- The strings lost by the reading of the scops of a file, with the fuel of the loop. -/
def tagsScops (c : Cfg) (T : TextLib D) (lost : Nat → Option Str → List Str) (registry : Ifaces) (prec : Int) : Nat → Str → List Str
  | 0, _ => []
  | n + 1, file => after (Util.read_uptotag file URI_SCOP) fun t file =>
    if t.isNone then []
    else tagsScop c T.toLib lost registry prec file ++ after (Scops.readOne c T registry prec file) fun _ file => tagsScops c T lost registry prec n file

/-- The strings lost by the reading of a file. -/
def tagsFile (c : Cfg) (T : TextLib D) (lost : Nat → Option Str → List Str) (registry : Ifaces) (prec : Int) (file : Str) : List Str :=
  tagsScops c T lost registry prec (file.length + 1) file

/-! ## The parts of a scop -/

theorem scopReadLanguage_spec {m : Ptr} {is : List Int} {l : List Ptr} (hl : decide (0 < l.length) = true) {s w pos : Str} (h : Scops.readLanguage s = .ok (w, pos)) :
    Triple (m ↦ .node is l) (scopReadLanguage m s) (fun x => pur (x = pos) ∗ ex fun q => m ↦ .node is (l.set 0 q) ∗ q ↦ .chars w) := by
  unfold Scops.readLanguage at h
  obtain ⟨⟨o, s1⟩, h1, h⟩ := Out.bind_eq_ok.mp h
  unfold scopReadLanguage
  hstep (strings_read_memory h1)
  match o, h with
  | some { string := some (v :: ws) }, h =>
    cases h
    refine Triple.of_fact (φ := p ≠ 0) (fun h hh => ?_) (fun hp => ?_)
    · obtain ⟨_, _, _, _, ⟨_, hh⟩, _⟩ := hh
      exact pto_ne_sep _ hh
    rw [if_neg hp]
    hstep (strings_size_memory p (some { string := some (w :: ws) }))
    rw [if_neg (by rw [strings_size_eq]; simp)]
    show Triple ((ex fun a => p ↦ .ptrs [a] ∗ arrayAt a (w :: ws)) ∗ _) _ _
    hnorm
    hopen Osl.Mem.arrayAt
    cases ps with
    | nil =>
      show Triple (_ ∗ pur False ∗ _) _ _
      hnorm
      contradiction
    | cons q ps =>
      show Triple (a ↦ .ptrs (q :: (ps ++ [0])) ∗ (q ↦ .chars w ∗ wordsAt ps ws) ∗ _) _ _
      hstep getField_spec
      hstep getField_spec
      hstep hStrdup_spec
      hstep (setPtr_spec (setNth_ok (l := l) (of_decide_eq_true hl)))
      have back : ∀ h, (p ↦ .ptrs [a] ∗ a ↦ .ptrs (q :: (ps ++ [0])) ∗ q ↦ .chars w ∗ wordsAt ps ws) h → stringsAt p (some { string := some (w :: ws) }) h := by
        intro h hh
        refine ⟨a, sep_mono (fun _ h => h) (fun h hh => ⟨q :: ps, hh⟩) hh⟩
      hconv back
      hstep (strings_free_memory p _)
      hret

section

variable (R : DataRead O) {registry : Ifaces} (hr : ∀ i ∈ registry, R.good i.fns)
include hr

theorem scopReadParameters_spec {m r : Ptr} {is : List Int} {l0 l1 st e n : Ptr} {np : Int} {s pos : Str} {g : GList D}
    (h : Scops.readParameters L.toEnv registry np s = .ok (g, pos)) :
    Triple (m ↦ .node is [l0, l1, 0, st, r, e, n] ∗ ifacesAt r registry) (scopReadParameters R.sread m np s)
      (fun x => pur (x = pos) ∗ ex fun q => m ↦ .node is [l0, l1, q, st, r, e, n] ∗ ifacesAt r registry ∗ glistAt O q g ∗ looseAt (lostParameters R.lost registry np s)) := by
  unfold Scops.readParameters at h
  unfold scopReadParameters lostParameters
  by_cases hn : np > 0
  · rw [if_pos hn] at h ⊢
    rw [if_pos hn]
    hstep getPtr_spec
    hstep (generic_read_one_memory R hr h r)
    hstep setPtr_spec
    hret
  · rw [if_neg hn] at h ⊢
    rw [if_neg hn]
    cases h
    refine Triple.ret (fun h hh => pur_sep_iff.mpr ⟨rfl, 0, ?_⟩)
    show (_ ∗ _ ∗ glistAt O 0 [] ∗ _) h
    rw [glistAt_zero, looseAt_nil]
    simp only [emp_sep, sep_emp]
    exact hh

end

/-- The statements of a scop read so far: the first one, and the last one, which `prev` points to. -/
def stmtsDone (c : Cfg) (O : DataMem D L.toEnv) (head prev : Ptr) (d : Stmts D) : Assn :=
  if d = [] then pur (head = 0) else (stmtChain c O).done head prev d

theorem stmtsDone_list {head prev : Ptr} {d : Stmts D} : ∀ h, stmtsDone c O head prev d h → stmtsAt c O head d h := by
  intro h hh
  unfold stmtsDone at hh
  by_cases hd : d = []
  · rw [if_pos hd] at hh
    subst hd
    exact hh
  · rw [if_neg hd] at hh
    exact Chain.done_list h hh

theorem scopLinkStmt_spec {m prev q : Ptr} {is : List Int} {l0 l1 g st r e n : Ptr} {d : Stmts D} {x : Stmt D} :
    Triple (m ↦ .node is [l0, l1, g, st, r, e, n] ∗ stmtsDone c O st prev d ∗ stmtAt c O q x 0) (scopLinkStmt m prev q)
      (fun _ => ex fun st' => m ↦ .node is [l0, l1, g, st', r, e, n] ∗ stmtsDone c O st' q (d ++ [x])) := by
  unfold scopLinkStmt
  hstep getPtr_spec
  have e1 : ∀ st', stmtsDone c O st' q (d ++ [x]) = ((stmtChain c O).seg st' d q ∗ stmtAt c O q x 0) := by
    intro st'
    unfold stmtsDone
    rw [if_neg (by simp)]
    unfold Chain.done
    simp only [List.getLast?_append, List.getLast?_singleton, Option.some_or, List.dropLast_concat]
    rfl
  simp only [e1]
  unfold stmtsDone
  by_cases hd : d = []
  · rw [if_pos hd]
    subst hd
    hnorm
    rw [if_pos rfl]
    hlast setPtr_spec
    refine Triple.ret (fun h hh => ⟨q, ?_⟩)
    show (_ ∗ pur (q = q) ∗ _) h
    rw [pur_true rfl, emp_sep]
    exact hh
  · rw [if_neg hd]
    unfold Chain.done
    rw [List.getLast?_eq_some_getLast hd]
    dsimp only
    refine Triple.of_fact (φ := st ≠ 0) (fun h hh => ?_) (fun hs => ?_)
    · have hh' : (((stmtChain c O).seg st d.dropLast prev ∗ stmtAt c O prev (d.getLast hd) 0) ∗ m ↦ .node is [l0, l1, g, st, r, e, n] ∗ stmtAt c O q x 0) h :=
        hh.perm (by show _ = (_ ∗ (stmtChain c O).at_ _ _ _) ∗ _; ac_rfl)
      obtain ⟨h1, _, _, _, hh1, _⟩ := hh'
      have := Chain.seg_at (N := stmtChain c O) h1 hh1
      rw [List.dropLast_concat_getLast hd] at this
      cases d with
      | nil => exact absurd rfl hd
      | cons a d => exact Chain.list_cons_ne this
    rw [if_neg hs]
    hlast ((stmtChain c O).set_spec prev (d.getLast hd) 0 q)
    refine Triple.ret (fun h hh => ⟨st, ?_⟩)
    have hh' : (m ↦ .node is [l0, l1, g, st, r, e, n] ∗ ((stmtChain c O).seg st d.dropLast prev ∗ stmtAt c O prev (d.getLast hd) q) ∗ stmtAt c O q x 0) h :=
      hh.perm (by show (stmtChain c O).at_ _ _ _ ∗ _ = _ ∗ (_ ∗ (stmtChain c O).at_ _ _ _) ∗ _; ac_rfl)
    refine sep_mono (fun _ h => h) (fun _ hx => sep_mono (fun h hh => ?_) (fun _ h => h) hx) hh'
    have := Chain.seg_at (N := stmtChain c O) h hh
    rwa [List.dropLast_concat_getLast hd] at this

section

variable (R : DataRead O) {registry : Ifaces} (hr : ∀ i ∈ registry, R.good i.fns)
include hr

theorem scopReadStmts_spec {m r : Ptr} {is : List Int} {l0 l1 g e n : Ptr} {prec : Int} : ∀ (k : Nat) (st prev : Ptr) (d : Stmts D) (s pos : Str) (l : Stmts D),
    Scops.readStmts c L registry prec k s = .ok (l, pos) →
    Triple (m ↦ .node is [l0, l1, g, st, r, e, n] ∗ ifacesAt r registry ∗ stmtsDone c O st prev d) (scopReadStmts c R.sread prec m k prev s)
      (fun x => pur (x.2 = pos) ∗ ex fun st' => m ↦ .node is [l0, l1, g, st', r, e, n] ∗ ifacesAt r registry ∗ stmtsAt c O st' (d ++ l) ∗
        looseAt (lostStmts c L R.lost registry prec k s))
  | 0, st, prev, d, s, pos, l, h => by
    cases h
    simp only [lostStmts, looseAt_nil, sep_emp, List.append_nil]
    refine Triple.ret (fun h hh => pur_sep_iff.mpr ⟨rfl, st, ?_⟩)
    exact sep_mono (fun _ h => h) (fun _ hx => sep_mono (fun _ h => h) stmtsDone_list hx) hh
  | k + 1, st, prev, d, s, pos, l, h => by
    unfold Scops.readStmts at h
    obtain ⟨⟨x, s1⟩, h1, h⟩ := Out.bind_eq_ok.mp h
    obtain ⟨⟨l', s2⟩, h2, h⟩ := Out.bind_eq_ok.mp h
    cases h
    unfold scopReadStmts
    hstep getPtr_spec
    hstep (statement_pread_memory R hr h1 r)
    hstep (scopLinkStmt_spec (c := c) (O := O) (x := x))
    simp only [lostStmts, h1, after, looseAt_app]
    have := scopReadStmts_spec (m := m) (r := r) (is := is) (l0 := l0) (l1 := l1) (g := g) (e := e) (n := n) (prec := prec) k st' p (d ++ [x]) s1 pos l' h2
    rw [List.append_assoc] at this
    hlast this
    generalize looseAt (lostStmt c L.toEnv R.lost registry prec s) = w1
    generalize looseAt (lostStmts c L R.lost registry prec k s1) = w2
    hret

end

/-! ## Scops -/

variable {T : TextLib D} {O' : DataMem D T.toLib.toEnv}

section

variable (R : DataRead O') {registry : Ifaces} (hr : ∀ i ∈ registry, R.good i.fns)
include hr

theorem scopReadOne_spec {prec : Int} {s pos : Str} {x : Scop D} (h : Scops.readOne c T registry prec s = .ok (x, pos)) (r prev : Ptr) :
    Triple (ifacesAt r registry) (scopReadOne c R.sread r prec prev s)
      (fun y => pur (y.2.2 = pos) ∗ ifacesAt r registry ∗ scopAt c O' y.1 x 0 ∗ looseAt (tagsScop c T.toLib R.lost registry prec s)) := by
  unfold Scops.readOne at h
  obtain ⟨reg, h0, h⟩ := Out.bind_eq_ok.mp h
  have e0 := clone_same h0
  obtain ⟨⟨lang, s1⟩, h1, h⟩ := Out.bind_eq_ok.mp h
  obtain ⟨⟨ctx, s2⟩, h2, h⟩ := Out.bind_eq_ok.mp h
  obtain ⟨⟨np, s3⟩, h3, h⟩ := Out.bind_eq_ok.mp h
  obtain ⟨⟨par, s4⟩, h4, h⟩ := Out.bind_eq_ok.mp h
  obtain ⟨⟨ns, s5⟩, h5, h⟩ := Out.bind_eq_ok.mp h
  obtain ⟨⟨st, s6⟩, h6, h⟩ := Out.bind_eq_ok.mp h
  obtain ⟨⟨ext, s7⟩, h7, h⟩ := Out.bind_eq_ok.mp h
  cases h
  rw [e0] at h0 h4 h6 h7 ⊢
  unfold scopReadOne scopMalloc
  simp only [tagsScop, h1, h2, h3, h4, h5, h6, after]
  hstep Triple.alloc
  hstep (interface_clone_memory h0)
  hstep setPtr_spec
  hstep (scopReadLanguage_spec (m := scop) rfl h1)
  hstep (relation_pread_memory h2)
  hstep setPtr_spec
  refine Triple.liftStep h3 ?_
  hstep (scopReadParameters_spec R hr h4)
  refine Triple.liftStep h5 ?_
  have hd : ∀ h, emp h → stmtsDone c O' 0 prev [] h := fun h hh => ⟨rfl, hh⟩
  hconv hd
  hstep (scopReadStmts_spec (L := T.toLib) R hr ns.toNat 0 prev [] s5 s6 st h6)
  hstep getPtr_spec
  hstep (generic_read_memory R hr h7)
  hstep setPtr_spec
  rw [List.nil_append]
  simp only [looseAt_app]
  hret

end

theorem scopReadTag_spec {s pos : Str} {o : Option Str} (h : Util.read_uptotag s URI_SCOP = .ok (o, pos)) :
    Triple emp (scopReadTag s) (fun r => pur (r = (o.isSome, pos))) := by
  have h1 : Util.read_uptoflag s (Util.startTag URI_SCOP) = .ok (o, pos) := h
  unfold scopReadTag
  hstep (read_uptoflag_memory h1)
  cases o with
  | none =>
    show Triple (pur (p = 0)) _ _
    refine Triple.fact1 (fun hp => ?_)
    rw [if_pos hp]
    exact Triple.ret (fun h hh => ⟨rfl, hh⟩)
  | some w =>
    show Triple (p ↦ .chars w) _ _
    refine Triple.of_fact (φ := p ≠ 0) (fun h hh => hh.1) (fun hp => ?_)
    rw [if_neg hp]
    hstep Triple.free
    exact Triple.ret (fun h hh => ⟨rfl, hh⟩)

/-- The scops read so far: the list and its last scop, which `current` points to. -/
def scopsDone (c : Cfg) (O : DataMem D T.toLib.toEnv) (first : Bool) (list current : Ptr) (d : Scops D) : Assn :=
  if first then pur (d = [] ∧ list = 0) else pur (d ≠ []) ∗ (scopChain c O).done list current d

theorem scopsDone_list {first : Bool} {list current : Ptr} {d : Scops D} : ∀ h, scopsDone c O' first list current d h → scopsAt c O' list d h := by
  intro h hh
  cases first with
  | true =>
    obtain ⟨⟨rfl, rfl⟩, hh⟩ := hh
    exact ⟨rfl, hh⟩
  | false =>
    have hh : (pur (d ≠ []) ∗ (scopChain c O').done list current d) h := hh
    exact Chain.done_list h (pur_sep_iff.mp hh).2

theorem scopLink_spec {first : Bool} {list current q : Ptr} {d : Scops D} {x : Scop D} :
    Triple (scopsDone c O' first list current d ∗ scopAt c O' q x 0) (scopLink first list current q)
      (fun l => scopsDone c O' false l q (d ++ [x])) := by
  have e1 : ∀ l, scopsDone c O' false l q (d ++ [x]) = ((scopChain c O').seg l d q ∗ scopAt c O' q x 0) := by
    intro l
    show pur (d ++ [x] ≠ []) ∗ (scopChain c O').done l q (d ++ [x]) = _
    rw [pur_true (by simp), emp_sep]
    unfold Chain.done
    simp only [List.getLast?_append, List.getLast?_singleton, Option.some_or, List.dropLast_concat]
    rfl
  simp only [e1]
  unfold scopLink
  cases first with
  | true =>
    rw [if_pos rfl]
    show Triple (pur (d = [] ∧ list = 0) ∗ _) _ _
    refine Triple.fact (fun ⟨hd, _⟩ => ?_)
    subst hd
    refine Triple.ret (fun h hh => ?_)
    show (pur (q = q) ∗ _) h
    rw [pur_true rfl, emp_sep]
    exact hh
  | false =>
    rw [if_neg (by simp)]
    show Triple ((pur (d ≠ []) ∗ (scopChain c O').done list current d) ∗ _) _ _
    rw [sep_assoc]
    refine Triple.fact (fun hd => ?_)
    unfold Chain.done
    rw [List.getLast?_eq_some_getLast hd]
    dsimp only
    hstep ((scopChain c O').set_spec current (d.getLast hd) 0 q)
    refine Triple.ret (fun h hh => ?_)
    have hh' : (((scopChain c O').seg list d.dropLast current ∗ scopAt c O' current (d.getLast hd) q) ∗ scopAt c O' q x 0) h :=
      hh.perm (by show (scopChain c O').at_ _ _ _ ∗ _ = (_ ∗ (scopChain c O').at_ _ _ _) ∗ _; ac_rfl)
    refine sep_mono (fun h hh => ?_) (fun _ h => h) hh'
    have := Chain.seg_at (N := scopChain c O') h hh
    rwa [List.dropLast_concat_getLast hd] at this

section

variable (R : DataRead O') {registry : Ifaces} (hr : ∀ i ∈ registry, R.good i.fns)
include hr

theorem scopReadLoop_spec {prec : Int} (r : Ptr) : ∀ (k : Nat) (first : Bool) (list current prev : Ptr) (d : Scops D) (s : Str) (l : Scops D),
    Scops.readLoop c T registry prec k s = .ok l →
    Triple (ifacesAt r registry ∗ scopsDone c O' first list current d) (scopReadLoop c R.sread r prec k first list current prev s)
      (fun p => ifacesAt r registry ∗ scopsAt c O' p (d ++ l) ∗ looseAt (tagsScops c T R.lost registry prec k s))
  | 0, first, list, current, prev, d, s, l, h => by cases h
  | k + 1, first, list, current, prev, d, s, l, h => by
    unfold Scops.readLoop at h
    obtain ⟨⟨o, s1⟩, h1, h⟩ := Out.bind_eq_ok.mp h
    unfold scopReadLoop
    simp only [tagsScops, h1, after]
    hstep (scopReadTag_spec h1)
    cases o with
    | none =>
      cases h
      rw [if_neg (by simp)]
      simp only [Option.isNone_none, if_true, looseAt_nil, sep_emp, List.append_nil]
      exact Triple.ret (fun h hh => sep_mono (fun _ h => h) scopsDone_list hh)
    | some w =>
      dsimp only at h
      obtain ⟨⟨x, s2⟩, h2, h⟩ := Out.bind_eq_ok.mp h
      obtain ⟨l', h3, h⟩ := Out.bind_eq_ok.mp h
      cases h
      simp only [Option.isSome_some, Option.isNone_some, if_true, Bool.false_eq_true, if_false, h2, looseAt_app]
      hstep (scopReadOne_spec R hr h2 r prev)
      hstep (scopLink_spec (first := first) (list := list) (current := current) (x := x))
      have := scopReadLoop_spec r k false list scop.1 scop.2.1 (d ++ [x]) scop.2.2 l' h3
      rw [List.append_assoc] at this
      hlast this
      generalize looseAt (tagsScop c T.toLib R.lost registry prec s1) = w1
      generalize looseAt (tagsScops c T R.lost registry prec k scop.2.2) = w2
      hret

/-- C72: `osl_scop_pread` allocates exactly the scops, besides the tags which are lost. -/
theorem scop_pread_memory {prec : Int} {s : Str} {l : Scops D} (h : Scops.pread c T registry prec s = .ok l) (r : Ptr) :
    Triple (ifacesAt r registry) (scopPread c R.sread r prec s)
      (fun p => ifacesAt r registry ∗ scopsAt c O' p l ∗ looseAt (tagsFile c T R.lost registry prec s)) := by
  unfold Scops.pread at h
  obtain ⟨l', h1, h⟩ := Out.bind_eq_ok.mp h
  obtain ⟨_, _, h⟩ := Out.bind_eq_ok.mp h
  cases h
  unfold scopPread tagsFile
  have := scopReadLoop_spec (c := c) R hr (prec := prec) r (s.length + 1) true 0 0 0 [] s l h1
  refine this.pre (fun h hh => ?_)
  show (_ ∗ pur (_ ∧ _)) h
  rw [pur_true ⟨rfl, rfl⟩, sep_emp]
  exact hh

end

/-- C72: `osl_scop_read` allocates exactly the scops, besides the tags which are lost: the registry which it builds is freed. -/
theorem scop_read_memory (R : DataRead O') (hr : ∀ i ∈ defaultRegistry, R.good i.fns) {e : Option Str} {s : Str} {l : Scops D}
    (h : Scops.read c T e defaultRegistry s = .ok l) :
    Triple emp (scopRead c e R.sread s)
      (fun p => scopsAt c O' p l ∗ looseAt (tagsFile c T R.lost defaultRegistry (Util.get_precision c e) s)) := by
  unfold scopRead
  hstep (default_registry_memory default_registry_eq.1)
  hstep (scop_pread_memory R hr (c := c) (T := T) h registry)
  hstep interface_free_memory
  hret

end Osl.Mem
