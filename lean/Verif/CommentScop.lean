import Verif.CommentHeader
import Verif.ScopPrintDefault
/-!
# C68: the comments of the text of statements and scops
-/

namespace Osl
open Comment

namespace Rel

/-- In the text `t`, the first row of each part of `r` comes right after a line which names its columns, and the entries of each row are followed by a comment
which says what the row says, with the names `names`. -/
def Commented (names : Names) (r : Rel) (t : Str) : Prop :=
  ∀ p ∈ r, HeaderBefore p names t ∧ ∀ (i : Nat) (hi : i < p.m.length), ∃ cm, IsAfter t p.m[i] cm ∧ Says p.m[i] (dimNames p names) (wordsOf names.arrays) cm

theorem Commented.mono {names : Names} {r : Rel} {t u : Str} (h : Commented names r t) (a b : Str) (e : u = a ++ (t ++ b)) : Commented names r u :=
  fun p hp => ⟨HeaderBefore.mono (h p hp).1 a b e, fun i hi => by
    obtain ⟨cm, h1, h2⟩ := (h p hp).2 i hi
    exact ⟨cm, isAfter_mono h1 a b e, h2⟩⟩

theorem spprint_commented {c : Cfg} (hv : c.Valid) (hnd : c.ndebug = false) {names : Names} (hg : GoodNames names) {r : Rel} (h : Prints c r)
    (hn : AllNamed c names r) {t : Str} (e : spprint c r (some names) = .ok t) : Commented names r t := by
  obtain ⟨t', e', h'⟩ := relation_comments_say hv hnd hg h.parts hn fun ha q hq => ((h.typed.access ha).1 q hq).2
  rw [e] at e'
  cases e'
  exact fun p hp => ⟨relation_headers_say h.parts e p hp, h' p hp⟩

end Rel

namespace RList

theorem eltsLoop_commented {c : Cfg} (hv : c.Valid) (hnd : c.ndebug = false) {names : Names} (hg : Rel.GoodNames names) : ∀ (l : RList) (t : Str),
    (∀ r ∈ l, Rel.Prints c r) → (∀ r ∈ l, Rel.AllNamed c names r) → eltsLoop c (some names) l = .ok t → ∀ r ∈ l, Rel.Commented names r t
  | [], _, _, _, _, r, hr => by cases hr
  | [] :: l, t, h, hn, e, r, hr => by
    simp only [eltsLoop] at e
    rcases List.mem_cons.mp hr with rfl | hr
    · intro p hp; cases hp
    · exact eltsLoop_commented hv hnd hg l t (fun r hr => h r (by simp [hr])) (fun r hr => hn r (by simp [hr])) e r hr
  | (q :: qs) :: l, t, h, hn, e, r, hr => by
    simp only [eltsLoop] at e
    obtain ⟨a, e1, e⟩ := Out.bind_eq_ok.mp e
    obtain ⟨b, e2, e⟩ := Out.bind_eq_ok.mp e
    cases e
    rcases List.mem_cons.mp hr with rfl | hr
    · exact (Rel.spprint_commented hv hnd hg (h _ (by simp)) (hn _ (by simp)) e1).mono [] _ (by simp; rfl)
    · exact (eltsLoop_commented hv hnd hg l b (fun r hr => h r (by simp [hr])) (fun r hr => hn r (by simp [hr])) e2 r hr).mono _ [] (by rw [List.append_nil])

theorem count_pos {l : RList} {r : Rel} (hr : r ∈ l) (hne : r ≠ []) : count l > 0 := by
  induction l with
  | nil => cases hr
  | cons a l ih =>
    rcases List.mem_cons.mp hr with rfl | hr
    · cases r with
      | nil => exact absurd rfl hne
      | cons p r => simp only [count]; omega
    · have := ih hr
      simp only [count]
      split <;> omega

theorem pprint_elts_commented {c : Cfg} (hv : c.Valid) (hnd : c.ndebug = false) {names : Names} (hg : Rel.GoodNames names) {l : RList} {t : Str}
    (h : ∀ r ∈ l, Rel.Prints c r) (hn : ∀ r ∈ l, Rel.AllNamed c names r) (e : pprint_elts c l (some names) = .ok t) : ∀ r ∈ l, Rel.Commented names r t := by
  intro r hr
  cases r with
  | nil => intro p hp; cases hp
  | cons p ps =>
    unfold pprint_elts at e
    rw [if_pos (count_pos hr (by simp))] at e
    exact eltsLoop_commented hv hnd hg l t h hn e _ hr

end RList

/-- The names used for a statement (specification): the iterators of its body if they are given, and those of `n` otherwise. -/
structure StmtNames (body : Option Body) (n m : Names) : Prop where
  given : ∀ b i, body = some b → b.iterators = some i → wordsOf m.iterators = i.words
  else_ : (∀ b, body = some b → b.iterators = none) → wordsOf m.iterators = wordsOf n.iterators
  scatt : wordsOf m.scatt_dims = wordsOf n.scatt_dims
  locals : wordsOf m.local_dims = wordsOf n.local_dims
  params : wordsOf m.parameters = wordsOf n.parameters
  arrays : wordsOf m.arrays = wordsOf n.arrays

namespace Stmts
variable {D : Type}

/-- The iterators given by the body of a statement can be used in expressions. -/
def GoodIters (L : Lib D) (s : Stmt D) : Prop :=
  ∀ b i, lookupBody L s.extension = .ok (some b) → b.iterators = some i → ∀ w ∈ i.words, IsName w

theorem clone_words (s : Option Strings) : wordsOf (Strings.clone s) = wordsOf s := by
  cases s with
  | none => rfl
  | some s =>
    simp only [Strings.clone]
    split
    · next h =>
      have : s.words = [] := by
        cases s with
        | mk o =>
          cases o with
          | none => rfl
          | some l => simp [Strings.size] at h; simp [Strings.words, h]
      show _ = s.words
      rw [this]; rfl
    · show List.map (fun x => x) s.words = s.words
      exact List.map_id' _

theorem withBody_names (n : Names) (b : Option Body) : StmtNames b n (withBody n b) := by
  cases b with
  | none => exact ⟨fun _ _ h => (by cases h), fun _ => rfl, rfl, rfl, rfl, rfl⟩
  | some b =>
    obtain ⟨it, ex⟩ := b
    cases it with
    | none => exact ⟨fun b i h h' => (by cases h; cases h'), fun _ => rfl, rfl, rfl, rfl, rfl⟩
    | some i => exact ⟨fun b i h h' => (by cases h; cases h'; rfl), fun h => (by have := h _ rfl; cases this), rfl, rfl, rfl, rfl⟩

theorem good_of_names {b : Option Body} {n m : Names} (h : StmtNames b n m) (hg : Rel.GoodNames n)
    (hi : ∀ b' i, b = some b' → b'.iterators = some i → ∀ w ∈ i.words, IsName w) : Rel.GoodNames m := by
  refine ⟨?_, by rw [h.scatt]; exact hg.scatt, by rw [h.locals]; exact hg.locals, by rw [h.params]; exact hg.params⟩
  cases b with
  | none => rw [h.else_ (by simp)]; exact hg.iterators
  | some b =>
    cases hit : b.iterators with
    | none => rw [h.else_ (by intro b' hb; cases hb; exact hit)]; exact hg.iterators
    | some i => rw [h.given b i rfl hit]; exact hi b i rfl hit

theorem printOne_commented {c : Cfg} (hv : c.Valid) (hnd : c.ndebug = false) {L : Lib D} {s : Stmt D} (h : Prints c L s) (hi : GoodIters L s) {names : Names}
    (hg : Rel.GoodNames names) (hn : ∀ r ∈ Stmts.rels s, Rel.AllNamed c names r) {number : Nat} {t : Str} (e : printOne c L names number s = .ok t) :
    ∃ b m, lookupBody L s.extension = .ok b ∧ StmtNames b names m ∧ ∀ r ∈ rels s, Rel.Commented m r t := by
  unfold printOne at e
  obtain ⟨b, eb, e⟩ := Out.bind_eq_ok.mp e
  dsimp only at e
  obtain ⟨t1, e1, e⟩ := Out.bind_eq_ok.mp e
  obtain ⟨t2, e2, e⟩ := Out.bind_eq_ok.mp e
  obtain ⟨t3, e3, e⟩ := Out.bind_eq_ok.mp e
  obtain ⟨t4, e4, e⟩ := Out.bind_eq_ok.mp e
  have hw := withBody_named h hn eb
  have hm := withBody_names names b
  have hg' := good_of_names hm hg fun b' i hb => hi b' i (by rw [eb, hb])
  have c1 := Rel.spprint_commented hv hnd hg' (h.rels s.domain (by simp [rels])) (hw s.domain (by simp [rels])) e1
  have c2 := Rel.spprint_commented hv hnd hg' (h.rels s.scattering (by simp [rels])) (hw s.scattering (by simp [rels])) e2
  have c3 := RList.pprint_elts_commented hv hnd hg' (l := s.access) (fun r hr => h.rels r (by simp [rels, hr])) (fun r hr => hw r (by simp [rels, hr])) e3
  refine ⟨b, _, eb, hm, fun r hr => ?_⟩
  have e : _ = t := Out.ok.inj e
  generalize "# =============================================== Statement ".toList = x1 at e
  generalize showNat number = x2 at e
  generalize "# Number of relations describing the statement:\n".toList = x3 at e
  generalize showNat (nbRelations s) = x4 at e
  generalize partLine number ".1 Domain".toList = x5 at e
  generalize partLine number ".2 Scattering".toList = x6 at e
  generalize partLine number ".3 Access".toList = x7 at e
  generalize partLine number ".4 Statement Extensions".toList = x8 at e
  generalize "\n\n".toList = x9 at e
  generalize "\n".toList = x10 at e
  generalize "# Number of Statement Extensions\n".toList = x11 at e
  generalize showInt (GList.number s.extension) = x12 at e
  rcases List.mem_cons.mp hr with rfl | hr
  · refine c1.mono (x1 ++ (x2 ++ (x10 ++ (x3 ++ (x4 ++ (x9 ++ x5))))))
      (x10 ++ (x6 ++ (t2 ++ (x10 ++ (x7 ++ (t3 ++ (x10 ++ (x8 ++ (x11 ++ (x12 ++ (x10 ++ (t4 ++ x10)))))))))))) ?_
    rw [← e]; simp only [List.append_assoc]
  · rcases List.mem_cons.mp hr with rfl | hr
    · refine c2.mono (x1 ++ (x2 ++ (x10 ++ (x3 ++ (x4 ++ (x9 ++ (x5 ++ (t1 ++ (x10 ++ x6)))))))))
        (x10 ++ (x7 ++ (t3 ++ (x10 ++ (x8 ++ (x11 ++ (x12 ++ (x10 ++ (t4 ++ x10))))))))) ?_
      rw [← e]; simp only [List.append_assoc]
    · refine (c3 r hr).mono (x1 ++ (x2 ++ (x10 ++ (x3 ++ (x4 ++ (x9 ++ (x5 ++ (t1 ++ (x10 ++ (x6 ++ (t2 ++ (x10 ++ x7))))))))))))
        (x10 ++ (x8 ++ (x11 ++ (x12 ++ (x10 ++ (t4 ++ x10)))))) ?_
      rw [← e]; simp only [List.append_assoc]

theorem printLoop_commented {c : Cfg} (hv : c.Valid) (hnd : c.ndebug = false) {L : Lib D} {names : Names} (hg : Rel.GoodNames names) : ∀ (ss : Stmts D) (number : Nat) (t : Str),
    (∀ s ∈ ss, Prints c L s) → (∀ s ∈ ss, GoodIters L s) → (∀ s ∈ ss, ∀ r ∈ Stmts.rels s, Rel.AllNamed c names r) → printLoop c L names number ss = .ok t →
    ∀ s ∈ ss, ∃ b m, lookupBody L s.extension = .ok b ∧ StmtNames b names m ∧ ∀ r ∈ rels s, Rel.Commented m r t
  | [], _, _, _, _, _, _, s, hs => by cases hs
  | q :: ss, number, t, h, hi, hn, e, s, hs => by
    simp only [printLoop] at e
    obtain ⟨a, e1, e⟩ := Out.bind_eq_ok.mp e
    obtain ⟨b, e2, e⟩ := Out.bind_eq_ok.mp e
    cases e
    rcases List.mem_cons.mp hs with rfl | hs
    · obtain ⟨bo, m, h1, h2, h3⟩ := printOne_commented hv hnd (h s (by simp)) (hi s (by simp)) hg (hn s (by simp)) e1
      exact ⟨bo, m, h1, h2, fun r hr => (h3 r hr).mono [] b (by simp)⟩
    · obtain ⟨bo, m, h1, h2, h3⟩ := printLoop_commented hv hnd hg ss (number + 1) b (fun x hx => h x (by simp [hx])) (fun x hx => hi x (by simp [hx]))
        (fun x hx => hn x (by simp [hx])) e2 s hs
      exact ⟨bo, m, h1, h2, fun r hr => (h3 r hr).mono a [] (by simp)⟩

theorem StmtNames.clone {b : Option Body} {n n' m : Names} (e : Names.clone (some n) = some n') (h : StmtNames b n' m) : StmtNames b n m := by
  simp only [Names.clone] at e
  injection e with e
  subst e
  exact ⟨h.given, fun x => by rw [h.else_ x, clone_words], by rw [h.scatt, clone_words], by rw [h.locals, clone_words], by rw [h.params, clone_words], by rw [h.arrays, clone_words]⟩

theorem good_clone {n n' : Names} (e : Names.clone (some n) = some n') (h : Rel.GoodNames n) : Rel.GoodNames n' := by
  simp only [Names.clone] at e
  injection e with e
  subst e
  exact ⟨by simp only [clone_words]; exact h.iterators, by simp only [clone_words]; exact h.scatt, by simp only [clone_words]; exact h.locals, by simp only [clone_words]; exact h.params⟩

/-- C68: the comments of the text of `osl_statement_pprint`. -/
theorem statement_comments_say {c : Cfg} (hv : c.Valid) (hnd : c.ndebug = false) {L : Lib D} {names : Names} (hg : Rel.GoodNames names) {ss : Stmts D}
    (h : ∀ s ∈ ss, Prints c L s) (hi : ∀ s ∈ ss, GoodIters L s) (hn : ∀ s ∈ ss, ∀ r ∈ Stmts.rels s, Rel.AllNamed c names r) :
    ∃ t, pprint c L ss (some names) = .ok t ∧
      ∀ s ∈ ss, ∃ b m, lookupBody L s.extension = .ok b ∧ StmtNames b names m ∧ ∀ r ∈ rels s, Rel.Commented m r t := by
  obtain ⟨t, e⟩ := pprint_total hv h hn
  refine ⟨t, e, fun s hs => ?_⟩
  obtain ⟨n', hm⟩ : ∃ m, Names.clone (some names) = some m := ⟨_, rfl⟩
  unfold pprint at e
  simp only [chooseNames, hm, Option.getD_some, Out.ok_bind] at e
  obtain ⟨b, m, h1, h2, h3⟩ := printLoop_commented hv hnd (good_clone hm hg) ss 1 t h hi (fun s hs r hr ps hps => (hn s hs r hr ps hps).clone hm) e s hs
  exact ⟨b, m, h1, StmtNames.clone hm h2, h3⟩

end Stmts

/-- The names `p1`, `p2`, `p3`, .. of the prefix `p` (specification). -/
def Numbered (p : Char) (ws : List Str) : Prop := ∃ k, ws = (List.range k).map fun j => p :: showNat (j + 1)

theorem numbered_generate {p : Char} {n : Int} {s : Strings} (h : Strings.generate [p] n = .ok s) : Numbered p (wordsOf (some s)) := by
  show Numbered p s.words
  unfold Strings.generate at h
  split at h
  · cases h; exact ⟨0, rfl⟩
  · split at h
    · cases h
    · injection h with h
      subst h
      refine ⟨n.toNat, ?_⟩
      show Strings.genLoop [p] 0 n.toNat = _
      rw [Strings.genLoop_eq]
      refine List.ext_getElem (by simp) fun k _ _ => ?_
      simp only [List.getElem_map, List.getElem_range', List.getElem_range, List.cons_append, List.nil_append]
      rw [Nat.one_mul, Nat.zero_add, Nat.add_comm]

namespace Scops
variable {D : Type}

/-- The names used for a scop (specification): the parameters and the arrays which are given, and numbered names otherwise. -/
structure ScopNames (L : TextLib D) (s : Scop D) (m : Names) : Prop where
  given : hasURI s.parameters URI_STRINGS = true → ∃ p, paramNames L s.parameters = .ok p ∧ wordsOf m.parameters = wordsOf p
  params : hasURI s.parameters URI_STRINGS = false → Numbered 'P' (wordsOf m.parameters)
  known : ∀ d, GList.lookup s.extension URI_ARRAYS = some d → ∃ a, L.arraysNames d = .ok a ∧ wordsOf m.arrays = wordsOf a
  arrays : GList.lookup s.extension URI_ARRAYS = none → Numbered 'A' (wordsOf m.arrays)
  iterators : Numbered 'i' (wordsOf m.iterators)
  scatt : Numbered 'c' (wordsOf m.scatt_dims)
  locals : Numbered 'l' (wordsOf m.local_dims)

/-- The parameters and the iterators given by the scop can be used in expressions. -/
structure GoodGiven (L : TextLib D) (s : Scop D) : Prop where
  params : hasURI s.parameters URI_STRINGS = true → ∀ p, paramNames L s.parameters = .ok p → ∀ w ∈ wordsOf p, IsName w
  iters : ∀ st ∈ s.statement, Stmts.GoodIters L.toLib st

/-- In the text `t`, the rows of the relations of `s` are followed by comments which say what they say: those of the context with the names of
the scop, those of a statement with its iterators too. -/
def Commented (L : TextLib D) (s : Scop D) (t : Str) : Prop :=
  ∃ m, ScopNames L s m ∧ Rel.Commented m s.context t ∧
    ∀ st ∈ s.statement, ∃ b n, Stmts.lookupBody L.toLib st.extension = .ok b ∧ StmtNames b m n ∧ ∀ r ∈ Stmts.rels st, Rel.Commented n r t

theorem Commented.mono {L : TextLib D} {s : Scop D} {t u : Str} (h : Commented L s t) (a b : Str) (e : u = a ++ (t ++ b)) : Commented L s u := by
  obtain ⟨m, h1, h2, h3⟩ := h
  refine ⟨m, h1, h2.mono a b e, fun st hst => ?_⟩
  obtain ⟨bo, n, k1, k2, k3⟩ := h3 st hst
  exact ⟨bo, n, k1, k2, fun r hr => (k3 r hr).mono a b e⟩

/-- What is generated for all the scops. -/
structure Base (n : Names) : Prop where
  params : Numbered 'P' (wordsOf n.parameters)
  arrays : Numbered 'A' (wordsOf n.arrays)
  iterators : Numbered 'i' (wordsOf n.iterators)
  scatt : Numbered 'c' (wordsOf n.scatt_dims)
  locals : Numbered 'l' (wordsOf n.local_dims)

theorem base_names {c : Cfg} {x : Scops D} {n : Names} (h : names c x = .ok n) : Base n ∧ Rel.GoodNames n := by
  unfold names at h
  obtain ⟨a, _, h⟩ := Out.bind_eq_ok.mp h
  refine ⟨?_, Rel.generate_good h⟩
  obtain ⟨sa, h1, h⟩ := Out.bind_eq_ok.mp h
  obtain ⟨sb, h2, h⟩ := Out.bind_eq_ok.mp h
  obtain ⟨sc, h3, h⟩ := Out.bind_eq_ok.mp h
  obtain ⟨sd, h4, h⟩ := Out.bind_eq_ok.mp h
  obtain ⟨se, h5, h⟩ := Out.bind_eq_ok.mp h
  cases h
  exact ⟨numbered_generate h1, numbered_generate h5, numbered_generate h2, numbered_generate h3, numbered_generate h4⟩

theorem scop_names {L : TextLib D} {s : Scop D} {n n1 n2 : Names} (h : Base n) (e1 : withParams L s n = .ok n1) (e2 : withArrays L s n1 = .ok n2) :
    ScopNames L s n2 := by
  unfold withParams at e1
  unfold withArrays at e2
  by_cases hu : hasURI s.parameters URI_STRINGS = true
  · rw [if_pos hu] at e1
    obtain ⟨p, ep, e1⟩ := Out.bind_eq_ok.mp e1
    cases e1
    cases hl : GList.lookup s.extension URI_ARRAYS with
    | none =>
      rw [hl] at e2
      cases e2
      exact ⟨fun _ => ⟨p, ep, rfl⟩, fun x => (by rw [hu] at x; cases x), fun d hd => (by rw [hl] at hd; cases hd), fun _ => h.arrays, h.iterators, h.scatt, h.locals⟩
    | some d =>
      rw [hl] at e2
      obtain ⟨a, ea, e2⟩ := Out.bind_eq_ok.mp e2
      cases e2
      exact ⟨fun _ => ⟨p, ep, rfl⟩, fun x => (by rw [hu] at x; cases x), fun d' hd => (by rw [hl] at hd; cases hd; exact ⟨a, ea, rfl⟩),
        fun x => (by rw [hl] at x; cases x), h.iterators, h.scatt, h.locals⟩
  · rw [if_neg hu] at e1
    cases e1
    cases hl : GList.lookup s.extension URI_ARRAYS with
    | none =>
      rw [hl] at e2
      cases e2
      exact ⟨fun x => absurd x hu, fun _ => h.params, fun d hd => (by rw [hl] at hd; cases hd), fun _ => h.arrays, h.iterators, h.scatt, h.locals⟩
    | some d =>
      rw [hl] at e2
      obtain ⟨a, ea, e2⟩ := Out.bind_eq_ok.mp e2
      cases e2
      exact ⟨fun x => absurd x hu, fun _ => h.params, fun d' hd => (by rw [hl] at hd; cases hd; exact ⟨a, ea, rfl⟩),
        fun x => (by rw [hl] at x; cases x), h.iterators, h.scatt, h.locals⟩

theorem with_good {L : TextLib D} {s : Scop D} {n n1 n2 : Names} (h : Rel.GoodNames n) (hg : GoodGiven L s) (e1 : withParams L s n = .ok n1)
    (e2 : withArrays L s n1 = .ok n2) : Rel.GoodNames n2 := by
  have h1 : Rel.GoodNames n1 := by
    unfold withParams at e1
    by_cases hu : hasURI s.parameters URI_STRINGS = true
    · rw [if_pos hu] at e1
      obtain ⟨p, ep, e1⟩ := Out.bind_eq_ok.mp e1
      cases e1
      exact ⟨h.iterators, h.scatt, h.locals, hg.params hu p ep⟩
    · rw [if_neg hu] at e1
      cases e1
      exact h
  unfold withArrays at e2
  cases hl : GList.lookup s.extension URI_ARRAYS with
  | none => rw [hl] at e2; cases e2; exact h1
  | some d =>
    rw [hl] at e2
    obtain ⟨a, ea, e2⟩ := Out.bind_eq_ok.mp e2
    cases e2
    exact ⟨h1.iterators, h1.scatt, h1.locals, h1.params⟩

theorem printOne_commented {c : Cfg} (hv : c.Valid) (hnd : c.ndebug = false) {L : TextLib D} {s : Scop D} (h : Prints c L s) (hgg : GoodGiven L s) {n : Names}
    (hb : Base n) (hg : Rel.GoodNames n) (hn : ∀ r ∈ rels s, Rel.AllNamed c n r) {t : Str} (e : printOne c L n s = .ok t) : Commented L s t := by
  obtain ⟨n1, e1, hn⟩ := withParams_named h hn
  obtain ⟨n2, e2, hn⟩ := withArrays_named hv hnd h hn
  unfold printOne at e
  rw [e1] at e
  simp only [Out.ok_bind] at e
  rw [e2] at e
  simp only [Out.ok_bind] at e
  obtain ⟨t1, e3, e⟩ := Out.bind_eq_ok.mp e
  obtain ⟨t2, e4, e⟩ := Out.bind_eq_ok.mp e
  obtain ⟨t3, e5, e⟩ := Out.bind_eq_ok.mp e
  obtain ⟨t4, e6, e⟩ := Out.bind_eq_ok.mp e
  have hg2 := with_good hg hgg e1 e2
  have c1 := Rel.spprint_commented hv hnd hg2 h.context (hn s.context (by simp [rels])) e3
  obtain ⟨t3', e5', c2⟩ := Stmts.statement_comments_say hv hnd hg2 h.statement hgg.iters
    (fun st hst r hr => hn r (by simp only [rels, List.mem_cons, List.mem_flatMap]; exact .inr ⟨st, hst, hr⟩))
  rw [e5] at e5'
  cases e5'
  have e : _ = t := Out.ok.inj e
  refine ⟨n2, scop_names hb e1 e2, ?_, fun st hst => ?_⟩
  all_goals
    generalize "\n<OpenScop>\n".toList = x1 at e
    generalize "\n# =============================================== Global\n# Language\n".toList = x2 at e
    generalize languageText s = x3 at e
    generalize "\n\n".toList = x4 at e
    generalize "# Context\n".toList = x5 at e
    generalize "\n".toList = x6 at e
    generalize provided (hasURI s.parameters URI_STRINGS) "Parameters are".toList = x7 at e
    generalize "\n# Number of statements\n".toList = x8 at e
    generalize showInt (Stmts.number s.statement) = x9 at e
    generalize "\n</OpenScop>\n\n".toList = x10 at e
  · exact c1.mono (x1 ++ (x2 ++ (x3 ++ (x4 ++ x5)))) (x6 ++ (x7 ++ (t2 ++ (x8 ++ (x9 ++ (x4 ++ (t3 ++ (t4 ++ x10))))))))
      (by rw [← e]; simp only [List.append_assoc])
  · obtain ⟨b, m, k1, k2, k3⟩ := c2 st hst
    exact ⟨b, m, k1, k2, fun r hr => (k3 r hr).mono (x1 ++ (x2 ++ (x3 ++ (x4 ++ (x5 ++ (t1 ++ (x6 ++ (x7 ++ (t2 ++ (x8 ++ (x9 ++ x4))))))))))) (t4 ++ x10)
      (by rw [← e]; simp only [List.append_assoc])⟩

theorem printLoop_commented {c : Cfg} (hv : c.Valid) (hnd : c.ndebug = false) {L : TextLib D} {n : Names} (hb : Base n) (hg : Rel.GoodNames n) :
    ∀ (x : Scops D) (t : Str), (∀ s ∈ x, Prints c L s) → (∀ s ∈ x, GoodGiven L s) → (∀ s ∈ x, ∀ r ∈ rels s, Rel.AllNamed c n r) →
    printLoop c L n x = .ok t → ∀ s ∈ x, Commented L s t
  | [], _, _, _, _, _, s, hs => by cases hs
  | q :: x, t, h, hgg, hn, e, s, hs => by
    simp only [printLoop] at e
    obtain ⟨a, e1, e⟩ := Out.bind_eq_ok.mp e
    obtain ⟨b, e2, e⟩ := Out.bind_eq_ok.mp e
    cases e
    rcases List.mem_cons.mp hs with rfl | hs
    · exact (printOne_commented hv hnd (h s (by simp)) (hgg s (by simp)) hb hg (hn s (by simp)) e1).mono [] b (by simp)
    · exact (printLoop_commented hv hnd hb hg x b (fun y hy => h y (by simp [hy])) (fun y hy => hgg y (by simp [hy])) (fun y hy => hn y (by simp [hy])) e2 s hs).mono
        a [] (by simp)

/-- C68: in the text of `osl_scop_print`, each row of each relation is followed by a comment which says what the row says. -/
theorem scop_comments_say {c : Cfg} (hv : c.Valid) (hnd : c.ndebug = false) {L : TextLib D} (release : Str) {x : Scops D} (h : ∀ s ∈ x, Prints c L s)
    (hgg : ∀ s ∈ x, GoodGiven L s) (hne : ∃ s ∈ x, ∃ r ∈ rels s, r ≠ []) : ∃ t, print c L release x = .ok t ∧ ∀ s ∈ x, Commented L s t := by
  obtain ⟨t, e⟩ := scop_print_total hv hnd release h hne
  refine ⟨t, e, ?_⟩
  obtain ⟨n, e1, hn⟩ := scop_names_cover hv hnd h hne
  obtain ⟨hb, hg⟩ := base_names e1
  cases x with
  | nil => intro s hs; cases hs
  | cons s x =>
    simp only [print] at e
    obtain ⟨b, _, e⟩ := Out.bind_eq_ok.mp e
    rw [e1] at e
    simp only [Out.ok_bind] at e
    obtain ⟨u, e2, e⟩ := Out.bind_eq_ok.mp e
    have e : _ = t := Out.ok.inj e
    intro y hy
    generalize "# [File generated by the OpenScop Library ".toList = x1 at e
    generalize "]\n".toList = x2 at e
    exact (printLoop_commented hv hnd hb hg _ u h hgg hn e2 y hy).mono (x1 ++ (release ++ x2)) [] (by rw [← e]; simp only [List.append_assoc, List.append_nil])

/-- C68: the same for every list of printable scops which passes the integrity check. -/
theorem scop_comments_checked {c : Cfg} (hv : c.Valid) (hnd : c.ndebug = false) {L : TextLib D} (release : Str) {x : Scops D}
    (h : ∀ s ∈ x, Printable c L s) (hgg : ∀ s ∈ x, GoodGiven L s) (hok : integrity_check c L.toLib x = .ok true) :
    ∃ t, print c L release x = .ok t ∧ ∀ s ∈ x, Commented L s t := by
  obtain ⟨b, e, hb⟩ := scop_integrity_check_iff hv hnd (L := L.toLib) (fun s hs => (h s hs).checkable.1) (fun s hs => (h s hs).checkable.2.1)
    (fun s hs => (h s hs).checkable.2.2)
  rw [hok] at e
  injection e with e
  have hall := hb.mp e.symm
  cases x with
  | nil => exact ⟨_, rfl, by simp⟩
  | cons s x =>
    exact scop_comments_say hv hnd release (fun y hy => (h y hy).prints (hall y hy)) hgg ⟨s, by simp, s.context, by simp [Scops.rels], (h s (by simp)).context⟩

end Scops

/-! ## Example -/

namespace Data

/-- A decision procedure for `IsName`. -/
def isName (w : Str) : Bool := !w.isEmpty && (w.head?.map isDigit != some true) && !w.contains '+' && !w.contains '-'

theorem isName_sound {w : Str} (h : isName w = true) : IsName w := by
  simp only [isName, Bool.and_eq_true, Bool.not_eq_true', bne_iff_ne, List.contains_eq_mem, decide_eq_false_iff_not, List.isEmpty_eq_false_iff] at h
  refine ⟨h.1.1.1, fun ch hc => ?_, h.1.2, h.2⟩
  have := h.1.1.2
  rw [hc] at this
  simpa using this

theorem exScopM_good : Scops.GoodGiven (libAt Cfg.std (some "64".toList) 1) exScopM where
  params := by
    intro _ p hp w hw
    have : (match Scops.paramNames (libAt Cfg.std (some "64".toList) 1) exScopM.parameters with | .ok p => (wordsOf p).all isName | _ => true) = true := by
      decide +kernel
    rw [hp] at this
    exact isName_sound (List.all_eq_true.mp this w hw)
  iters := by
    intro st hst b i hb hi w hw
    have : (match Stmts.lookupBody (libAt Cfg.std (some "64".toList) 1).toLib exStmtM.extension with
      | .ok (some b) => (wordsOf b.iterators).all isName | _ => true) = true := by decide +kernel
    have hst : st = exStmtM := by
      rcases List.mem_cons.mp hst with h | h
      · exact h
      · exact List.mem_singleton.mp h
    subst hst
    rw [hb] at this
    simp only [hi] at this
    exact isName_sound (List.all_eq_true.mp this w hw)

/-- All the hypotheses are met by a list of two scops with unions, given names and extensions. -/
example : ∃ t, Scops.print Cfg.std (libAt Cfg.std (some "64".toList) 1) "0.9.1".toList [exScopM, exScopM] = .ok t ∧
    ∀ s ∈ [exScopM, exScopM], Scops.Commented (libAt Cfg.std (some "64".toList) 1) s t :=
  Scops.scop_comments_checked (by decide) rfl _ (fun s hs => exScopM_all hs ▸ exScopM_print.printable (fun _ => Ext.Symbol.Plain.back) exScopM_plain)
    (fun s hs => exScopM_all hs ▸ exScopM_good) exScopM_checked

/-! ## Finding -/

/-- A context with one parameter. -/
def exSigned : Part :=
  { type := TYPE_CONTEXT, precision := 64, nb_output_dims := 0, nb_input_dims := 0, nb_local_dims := 0, nb_parameters := 1, m := [[1, -1, 0]], nb_rows := 1,
    nb_columns := 3 }

/-- The parameter is called `N-1`. -/
def exSignedNames : Names := ⟨some ⟨some ["N-1".toList]⟩, some ⟨some []⟩, some ⟨some []⟩, some ⟨some []⟩, some ⟨some []⟩⟩

/-- Finding (C68): names are copied into the comments without parentheses. With a parameter called `N-1`, the comment of `- (N-1) >= 0` is
`-N-1 >= 0`: the constraint holds for `N = 1`, the comment does not. -/
theorem comment_name_violates : ∃ ρ : Str → Int, ρ "N-1".toList = ρ "N".toList - 1 ∧
    Rel.spprint Cfg.std [exSigned] (some exSignedNames) = .ok "CONTEXT\n1 3 0 0 0 1\n# e/i| N-1|  1  \n   1   -1    0    ## -N-1 >= 0\n".toList ∧
    RowHolds [1, -1, 0] ((dimNames exSigned exSignedNames).map ρ) ∧ ¬ eval ρ "-N-1".toList ≥ eval ρ "0".toList :=
  ⟨fun w => if w = "N".toList then 1 else 0, by decide, by decide +kernel, by decide, by decide⟩

end Data
end Osl
