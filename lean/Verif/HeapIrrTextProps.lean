import Verif.HeapIrrText
import Verif.HeapIrrProps4
import Verif.HeapPrintExtProps
/-!
# The text of the irregular extension in memory (C78)
-/

set_option linter.unusedSectionVars false

namespace Osl.Mem

open Osl.Ext

variable [Allocator] {K X Y α : Type}

/-! ## Printing -/

/-- The memory of the buffer of `printf_in_buf`. -/
def pbufAt (b : StrBuf) (v : Irregular.PBuf) : Assn := pur (b.hwm = v.size) ∗ b.ptr ↦ .chars v.str

theorem pput_spec {args : Bool} {t : Str} {b : StrBuf} {v v' : Irregular.PBuf} (h : Irregular.printfInBuf args t v = .ok v') :
    Triple (pbufAt b v) (pput args t b) (fun b' => pbufAt b' v') := by
  unfold pbufAt
  refine Triple.fact (fun hb => ?_)
  unfold pput
  hstep (loadChars_spec (p := b.ptr) (w := v.str))
  have h : Irregular.printfInBuf args t ⟨v.str, b.hwm⟩ = .ok v' := by rw [hb]; exact h
  hstep (lift_spec h)
  by_cases hs : v'.size = b.hwm
  · rw [if_pos hs]
    hstep Triple.store
    exact Triple.ret (fun h hx => pur_sep_iff.mpr ⟨hs.symm, hx⟩)
  · rw [if_neg hs]
    hstep Triple.free
    hstep Triple.alloc
    exact Triple.ret (fun h hx => pur_sep_iff.mpr ⟨rfl, hx⟩)

theorem printAll_append : ∀ (l m : List (Bool × Str)) (b : Irregular.PBuf), Irregular.printAll (l ++ m) b = (Irregular.printAll l b >>= Irregular.printAll m)
  | [], _, _ => rfl
  | p :: l, m, b => by
    show (Irregular.printfInBuf p.1 p.2 b >>= fun b => Irregular.printAll (l ++ m) b) = ((Irregular.printfInBuf p.1 p.2 b >>= fun b => Irregular.printAll l b) >>= _)
    cases Irregular.printfInBuf p.1 p.2 b with
    | ok b' => exact printAll_append l m b'
    | err => rfl
    | ub => rfl

theorem printAll_cons_ok {p : Bool × Str} {l : List (Bool × Str)} {v v' : Irregular.PBuf} (h : Irregular.printAll (p :: l) v = .ok v') :
    ∃ u, Irregular.printfInBuf p.1 p.2 v = .ok u ∧ Irregular.printAll l u = .ok v' := Out.bind_eq_ok.mp h

theorem printAll_one {p : Bool × Str} {v v' : Irregular.PBuf} (h : Irregular.printAll [p] v = .ok v') : Irregular.printfInBuf p.1 p.2 v = .ok v' := by
  obtain ⟨u, h1, h2⟩ := printAll_cons_ok h
  cases h2
  exact h1

theorem printAll_app_ok {l m : List (Bool × Str)} {v v' : Irregular.PBuf} (h : Irregular.printAll (l ++ m) v = .ok v') :
    ∃ u, Irregular.printAll l v = .ok u ∧ Irregular.printAll m u = .ok v' := by
  rw [printAll_append] at h
  exact Out.bind_eq_ok.mp h

theorem putLoop_from {l : List α} {g : α → Out (List (Bool × Str))} {body : Int → StrBuf → M StrBuf} {F : Assn}
    (hb : ∀ (i : Nat) a b v v' ps, l[i]? = some a → g a = .ok ps → Irregular.printAll ps v = .ok v' → Triple (F ∗ pbufAt b v) (body i b) (fun b' => F ∗ pbufAt b' v')) :
    ∀ (m u : List α) (b : StrBuf) (v v' : Irregular.PBuf) (pss : List (List (Bool × Str))), l = u ++ m → Out.mapOut g m = .ok pss → Irregular.printAll pss.flatten v = .ok v' →
      Triple (F ∗ pbufAt b v) (Mem.forNS body m.length u.length b) (fun b' => F ∗ pbufAt b' v')
  | [], u, b, v, v', pss, _, h, hp => by
    cases h
    cases hp
    exact Triple.ret (fun _ h => h)
  | a :: m, u, b, v, v', pss, e, h, hp => by
    obtain ⟨ps, rest, h1, h2, rfl⟩ := Out.mapOut_cons_eq_ok.mp h
    rw [List.flatten_cons] at hp
    obtain ⟨w, h3, h4⟩ := printAll_app_ok hp
    show Triple _ (body u.length b >>= fun b => Mem.forNS body m.length (u.length + 1) b) _
    refine Triple.bind (hb u.length a b v w ps (by rw [e]; simp) h1 h3) (fun b1 => ?_)
    have := putLoop_from hb m (u ++ [a]) b1 w v' rest (by simp [e]) h2 h4
    simpa using this

theorem putLoop_spec {l : List α} {g : α → Out (List (Bool × Str))} {body : Int → StrBuf → M StrBuf} {F : Assn} {b : StrBuf} {v v' : Irregular.PBuf} {pss : List (List (Bool × Str))} {n : Int}
    (hn : n.toNat = l.length)
    (hb : ∀ (i : Nat) a b v v' ps, l[i]? = some a → g a = .ok ps → Irregular.printAll ps v = .ok v' → Triple (F ∗ pbufAt b v) (body i b) (fun b' => F ∗ pbufAt b' v'))
    (h : Out.mapOut g l = .ok pss) (hp : Irregular.printAll pss.flatten v = .ok v') : Triple (F ∗ pbufAt b v) (forS 0 n body b) (fun b' => F ∗ pbufAt b' v') := by
  unfold forS
  rw [show (n - 0).toNat = l.length by omega]
  exact putLoop_from hb l [] b v v' pss rfl h hp

theorem flatten_one {f : α → X} : ∀ (l : List α), (l.map fun x => [f x]).flatten = l.map f
  | [] => rfl
  | a :: l => by simp [flatten_one l]

theorem irrPutNum_spec {pr : Ptr} {L : List (List Int)} {l : List Int} {i j : Nat} {x : Int} (hl : L[i]? = some l) (hx : l[j]? = some x) {b : StrBuf} {v v' : Irregular.PBuf}
    (hp : Irregular.printfInBuf true (showInt x ++ " ".toList) v = .ok v') :
    Triple (tableAt intsAt pr L ∗ pbufAt b v) (irrPutNum pr i j b) (fun b' => tableAt intsAt pr L ∗ pbufAt b' v') := by
  unfold irrPutNum
  refine table_use hl (F := pbufAt b v) (G := fun b' => pbufAt b' v') (fun s => ?_)
  hstep (ints_slot (a := s) hx)
  hlast (pput_spec hp)
  hret

theorem irrPutStmt_spec {np pr : Ptr} {L : List (List Int)} {l : List Int} {i : Nat} (hl : L[i]? = some l) {b : StrBuf} {v v' : Irregular.PBuf}
    (hp : Irregular.printAll (Irregular.stmtPieces l) v = .ok v') :
    Triple (stmtListsAt np pr L ∗ pbufAt b v) (irrPutStmt np pr i b) (fun b' => stmtListsAt np pr L ∗ pbufAt b' v') := by
  obtain ⟨v1, h1, hp⟩ := printAll_cons_ok hp
  obtain ⟨v2, h2, hp⟩ := printAll_app_ok hp
  have h3 := printAll_one hp
  unfold irrPutStmt stmtListsAt
  hstep (ints_slot (a := np) (i := i) (map_getQ hl))
  hstep (pput_spec h1)
  hstep (putLoop_spec (n := (l.length : Int)) (l := l) (g := fun x => .ok [Irregular.numPiece x]) (body := irrPutNum pr i) (F := tableAt intsAt pr L) (pss := l.map fun x => [Irregular.numPiece x]) (v := v1) (v' := v2)
    (by omega) (fun j x b v v' ps hx hg hp => by
      cases hg
      exact irrPutNum_spec hl hx (printAll_one hp)) (mapOut_map _ l) (by rw [flatten_one]; exact h2))
  hlast (pput_spec h3)
  hret

theorem mapOut_single {g : α → Out X} : ∀ {l : List α} {m : List X}, Out.mapOut g l = .ok m → Out.mapOut (fun a => g a >>= fun x => .ok [x]) l = .ok (m.map fun x => [x])
  | [], m, h => by cases h; rfl
  | a :: l, m, h => by
    obtain ⟨x, m', h1, h2, rfl⟩ := Out.mapOut_cons_eq_ok.mp h
    exact Out.mapOut_cons_eq_ok.mpr ⟨[x], _, by rw [h1]; rfl, mapOut_single h2, rfl⟩

theorem putSlot_spec {a z : Str} {q : Ptr} {L : List (Option Str)} {o : Option Str} {i : Nat} (ho : L[i]? = some o) {pc : Bool × Str} (hpc : Irregular.strPiece a o z = .ok pc) {b : StrBuf} {v v' : Irregular.PBuf}
    (hp : Irregular.printfInBuf pc.1 pc.2 v = .ok v') : Triple (tableAt uriAt q L ∗ pbufAt b v) (putSlot a q i z b) (fun b' => tableAt uriAt q L ∗ pbufAt b' v') := by
  cases o with
  | none => cases hpc
  | some t =>
    have hpc : Out.ok (true, a ++ t ++ z) = .ok pc := hpc
    injection hpc with hpc
    subst hpc
    unfold putSlot
    refine table_use ho (F := pbufAt b v) (G := fun b' => pbufAt b' v') (fun s => ?_)
    show Triple (s ↦ .chars t ∗ pbufAt b v) _ (fun b' => s ↦ .chars t ∗ pbufAt b' v')
    hstep (loadChars_spec (p := s) (w := t))
    hlast (pput_spec hp)
    hret

theorem irrPutPred_spec {o : Ptr × Ptr × Ptr} {L : List Pred} {x : Pred} {i : Nat} (hx : L[i]? = some x) {ps : List (Bool × Str)} (hps : Irregular.predPieces x = .ok ps) {b : StrBuf}
    {v v' : Irregular.PBuf} (hp : Irregular.printAll ps v = .ok v') :
    Triple (predsAt o.1 o.2.1 o.2.2 L ∗ pbufAt b v) (irrPutPred o i b) (fun b' => predsAt o.1 o.2.1 o.2.2 L ∗ pbufAt b' v') := by
  unfold Irregular.predPieces at hps
  obtain ⟨its, h1, hps⟩ := Out.bind_eq_ok.mp hps
  obtain ⟨pc, h2, hps⟩ := Out.bind_eq_ok.mp hps
  cases hps
  obtain ⟨v1, h3, hp⟩ := printAll_cons_ok hp
  obtain ⟨v2, h4, hp⟩ := printAll_app_ok hp
  have h5 := printAll_one hp
  unfold irrPutPred predsAt
  hstep (ints_slot (a := o.1) (i := i) (map_getQ hx))
  hstep (pput_spec h3)
  have hloop := putLoop_spec (b := b1) (n := (x.iters.length : Int)) (l := x.iters) (g := fun s => Irregular.strPiece [] s " ".toList >>= fun pc => .ok [pc]) (body := irrPutIter o.2.1 i)
    (F := tableAt (tableAt uriAt) o.2.1 (L.map Pred.iters)) (pss := its.map fun p => [p]) (v := v1) (v' := v2) (by omega) (fun j s b v v' ps hs hg hp => by
      obtain ⟨pc, g1, g2⟩ := Out.bind_eq_ok.mp hg
      cases g2
      unfold irrPutIter
      refine table_use (map_getQ hx) (F := pbufAt b v) (G := fun b' => pbufAt b' v') (fun q => ?_)
      exact putSlot_spec hs g1 (printAll_one hp)) (mapOut_single h1) (by rw [flatten_one (f := fun x => x)]; simpa using h4)
  hstep hloop
  hlast (putSlot_spec (q := o.2.2) (i := i) (map_getQ hx) h2 h5)
  hret

theorem atI_nat {l : List α} {i : Int} {k : Nat} (hi : i = k) {a : α} (h : Irregular.atI l i = .ok a) : l[k]? = some a := by
  subst hi
  unfold Irregular.atI at h
  rw [if_neg (by omega), Int.toNat_natCast] at h
  cases hk : l[k]? with
  | none => rw [hk] at h; cases h
  | some b => rw [hk] at h; cases h; rfl

theorem irrPutPreds_spec {o : Ptr × Ptr × Ptr} {L : List Pred} {lo n : Int} {c : Nat} (hc : lo = c) {body : Int → StrBuf → M StrBuf}
    (hbody : ∀ (i : Nat) b (P : Assn) (Q : StrBuf → Assn), i < n.toNat → Triple P (irrPutPred o ((c + i : Nat) : Int) b) Q → Triple P (body i b) Q)
    {pss : List (List (Bool × Str))} (h : Irregular.predLoop L lo n = .ok pss) {b : StrBuf} {v v' : Irregular.PBuf} (hp : Irregular.printAll pss.flatten v = .ok v') :
    Triple (predsAt o.1 o.2.1 o.2.2 L ∗ pbufAt b v) (forS 0 n body b) (fun b' => predsAt o.1 o.2.1 o.2.2 L ∗ pbufAt b' v') := by
  refine putLoop_spec (l := List.range n.toNat) (by simp) (fun i k b v v' ps hk hg hp => ?_) h hp
  obtain ⟨hi, hk⟩ := List.getElem?_eq_some_iff.mp hk
  rw [List.getElem_range] at hk
  subst hk
  obtain ⟨x, g1, g2⟩ := Out.bind_eq_ok.mp hg
  refine hbody i b _ _ (by simpa using hi) ?_
  exact irrPutPred_spec (atI_nat (by omega) g1) g2 hp

theorem irrPutAll_spec {p : Ptr} {x : Irregular} (hw : x.WF) (hlt : x.nbControl + x.nbExit < 2 ^ 31) {ps : List (Bool × Str)} (hps : Irregular.pieces x = .ok ps) {v : Irregular.PBuf}
    (hp : Irregular.printAll ps { str := [], size := MAX_STRING } = .ok v) : Triple (irrAt p x) (irrPutAll p) (fun b => irrAt p x ∗ pbufAt b v) := by
  unfold Irregular.pieces at hps
  obtain ⟨cs, h1, hps⟩ := Out.bind_eq_ok.mp hps
  obtain ⟨es, h2, hps⟩ := Out.bind_eq_ok.mp hps
  cases hps
  obtain ⟨v1, g1, hp⟩ := printAll_cons_ok hp
  obtain ⟨v2, g2, hp⟩ := printAll_app_ok hp
  obtain ⟨v3, g3, hp⟩ := printAll_cons_ok hp
  obtain ⟨v4, g4, hp⟩ := printAll_cons_ok hp
  obtain ⟨v5, g5, g6⟩ := printAll_app_ok hp
  have hnew : Triple emp bufNew (fun b => pbufAt b { str := [], size := MAX_STRING }) := by
    unfold bufNew
    exact Triple.bind (Triple.alloc _) (fun p => Triple.ret (fun h hh => pur_sep_iff.mpr ⟨rfl, hh⟩))
  have hc := hw.control
  have he := hw.exit
  refine Triple.opened_all (fun h0 hh => ?_)
  obtain ⟨nb, it, bo, np, pr, hh⟩ := hh
  refine ⟨_, hh, ?_⟩
  unfold irrPutAll
  hstep hnew
  hstep (getInt_spec (p := p) (i := 2))
  hstep (pput_spec g1)
  hstep (getPtr_spec (p := p) (i := 3))
  hstep (getPtr_spec (p := p) (i := 4))
  hstep (putLoop_spec (n := (x.stmts.length : Int)) (l := x.stmts) (g := fun l => .ok (Irregular.stmtPieces l)) (body := irrPutStmt np pr) (F := stmtListsAt np pr x.stmts)
    (pss := x.stmts.map Irregular.stmtPieces) (v := v1) (v' := v2) (by omega) (fun j l b v v' ps hl hg hp => by
      cases hg
      exact irrPutStmt_spec hl hp) (mapOut_map _ _) g2)
  hstep (getInt_spec (p := p) (i := 0))
  hstep (pput_spec g3)
  hstep (getInt_spec (p := p) (i := 1))
  hstep (pput_spec g4)
  hstep (irrPreds_spec (p := p))
  obtain ⟨c, hcn⟩ := Int.eq_ofNat_of_zero_le hc
  hstep (irrPutPreds_spec (o := (nb, it, bo)) (L := x.preds) (lo := 0) (n := x.nbControl) (c := 0) rfl (body := irrPutPred (nb, it, bo)) (fun i b P Q hi ht => by rwa [Nat.zero_add] at ht) h1 g5)
  hlast (irrPutPreds_spec (o := (nb, it, bo)) (L := x.preds) (lo := x.nbControl) (n := x.nbExit) (c := c) hcn (body := irrPutExit (nb, it, bo) x.nbControl) (fun i b P Q hi ht => by
    unfold irrPutExit
    refine Triple.liftStep (a := x.nbControl + i) (Irregular.addI_ok (by omega) (by omega) (by omega)) ?_
    rwa [show x.nbControl + (i : Int) = ((c + i : Nat) : Int) by omega]) h2 g6)
  refine Triple.ret (fun h hh => ?_)
  refine sep_mono (P := p ↦ .node [x.nbControl, x.nbExit, (x.stmts.length : Int)] [nb, it, bo, np, pr] ∗ predsAt nb it bo x.preds ∗ stmtListsAt np pr x.stmts)
    (fun _ hx => ⟨nb, it, bo, np, pr, hx⟩) (fun _ h => h) ?_
  exact hh.perm (by ac_rfl)

/-- C78: `osl_irregular_sprint` returns a new string with the text of the extension, and changes nothing else. -/
theorem irregular_sprint_memory {p : Ptr} {d : Option Irregular} {t : Option Str} (hw : ∀ x, d = some x → x.WF ∧ x.nbControl + x.nbExit < 2 ^ 31) (h : Irregular.sprint d = .ok t) :
    Triple (optAt irrAt p d) (irrSprint p) (fun q => optAt irrAt p d ∗ uriAt q t) := by
  unfold irrSprint
  cases d with
  | none =>
    cases h
    rw [optAt_none]
    refine Triple.fact1 (fun hp => ?_)
    subst hp
    rw [if_neg (by simp)]
    refine Triple.ret (fun h hh => ?_)
    exact pur_sep_iff.mpr ⟨rfl, rfl, hh⟩
  | some x =>
    rw [optAt_some]
    have h : (Irregular.pieces x >>= fun ps => Irregular.printAll ps { str := [], size := MAX_STRING } >>= fun b =>
      Util.emit ["<irregular>".toList, b.str, "</irregular>\n".toList] >>= fun s => pure (some s)) = .ok t := h
    obtain ⟨ps, h1, h⟩ := Out.bind_eq_ok.mp h
    obtain ⟨v, h2, h⟩ := Out.bind_eq_ok.mp h
    obtain ⟨s, h3, h⟩ := Out.bind_eq_ok.mp h
    rw [Util.emit_eq] at h3
    injection h3 with h3
    cases h
    subst h3
    generalize "<irregular>".toList = t1
    generalize "</irregular>\n".toList = t2
    refine Triple.of_fact (φ := p ≠ 0) (fun h hh => irrAt_ne h hh) (fun hp => ?_)
    rw [if_pos hp]
    hstep bufNew_spec
    hstep (safe_strcat_memory (src := t1))
    hstep (irrPutAll_spec (p := p) (hw x rfl).1 (hw x rfl).2 h1 h2)
    unfold pbufAt
    hnorm
    hstep (loadChars_spec (p := d.ptr) (w := v.str))
    hstep (safe_strcat_memory (src := v.str))
    hstep (safe_strcat_memory (src := t2))
    hstep bufDone_spec
    hstep Triple.free
    refine Triple.ret (fun h hh => ?_)
    show (_ ∗ q ↦ .chars _) h
    simp only [List.nil_append, List.flatten_cons, List.flatten_nil, List.append_nil, List.append_assoc] at hh ⊢
    exact hh.perm (by ac_rfl)

/-! ## Reading -/

theorem ok_pair {A B : Type} {x : Out A} {f : A → Out B} {b : B} (h : (x >>= f) = .ok b) : ∃ a, x = .ok a ∧ f a = .ok b := Out.bind_eq_ok.mp h

theorem alloc_nat {k : Int} {n : Nat} (h : Irregular.alloc k = .ok n) : k = n := by
  unfold Irregular.alloc at h
  split at h
  · cases h
  · injection h with h
    omega

theorem readNums_spec {a : Ptr} {n : Nat} : ∀ (m : Nat) (done l : List Int) (s s' : Str) (k : Int), k = done.length → n = done.length + m → Irregular.readNums m s = .ok (l, s') →
    Triple (intsFill a n done) (Mem.forNS (irrReadNum a) m k s) (fun r => pur (r = s') ∗ intsFill a n (done ++ l))
  | 0, done, l, s, s', k, _, _, h => by
    cases h
    rw [List.append_nil]
    exact Triple.ret (fun h hh => pur_sep_iff.mpr ⟨rfl, hh⟩)
  | m + 1, done, l, s, s', k, hk, hn, h => by
    unfold Irregular.readNums at h
    obtain ⟨⟨v, s1⟩, h1, h⟩ := ok_pair h
    obtain ⟨⟨l', s2⟩, h2, h⟩ := ok_pair h
    cases h
    show Triple _ (irrReadNum a k s >>= fun s => Mem.forNS (irrReadNum a) m (k + 1) s) _
    have hb : Triple (intsFill a n done) (irrReadNum a k s) (fun r => pur (r = s1) ∗ intsFill a n (done ++ [v])) := by
      unfold irrReadNum
      hstep (lift_spec h1)
      hstep (intsFill_put (a := a) (n := n) (l := done) (k := k) (v := v) hk (by omega))
      hret
    refine Triple.bind hb (fun r => Triple.fact (fun hr => ?_))
    subst hr
    have := readNums_spec (a := a) (n := n) m (done ++ [v]) l' r s' (k + 1) (by simp; omega) (by simp; omega) h2
    simpa using this

theorem readNums_len : ∀ {m : Nat} {l : List Int} {s s' : Str}, Irregular.readNums m s = .ok (l, s') → l.length = m
  | 0, _, _, _, h => by cases h; rfl
  | m + 1, l, s, s', h => by
    unfold Irregular.readNums at h
    obtain ⟨⟨v, s1⟩, h1, h⟩ := ok_pair h
    obtain ⟨⟨l', s2⟩, h2, h⟩ := ok_pair h
    cases h
    simp [readNums_len h2]

theorem irrReadStmt_spec {d : Ptr × Ptr} {n m : Nat} {done : List (List Int)} {l : List Int} {k v : Int} {s s1 s2 : Str} (hk : k = done.length) (hn : done.length < n) (h1 : Irregular.readNum s = .ok (v, s1))
    (hv : v = m) (h2 : Irregular.readNums m s1 = .ok (l, s2)) :
    Triple (partStmts d n done) (irrReadStmt d.1 d.2 k s) (fun r => pur (r = s2) ∗ partStmts d n (done ++ [l])) := by
  have hl := readNums_len h2
  have hv : v = (l.length : Int) := by omega
  subst hv
  obtain ⟨np, pr⟩ := d
  unfold partStmts
  simp only [List.map_append, List.map_cons, List.map_nil]
  unfold irrReadStmt
  hstep (lift_spec h1)
  hstep (intsFill_put (a := np) (n := n) (l := done.map fun x => (x.length : Int)) (k := k) (v := (l.length : Int)) (by simp [hk]) (by simpa using hn))
  hstep (mallocInts_fill (m := m) (by omega))
  hstep (tableFill_set (f := intsAt) (a := pr) (n := n) (l := done) (k := k) hk hn)
  have hloop := readNums_spec (a := a) (n := m) m [] l s1 s2 0 rfl (by simp) h2
  rw [List.nil_append] at hloop
  rw [show forS 0 (l.length : Int) (irrReadNum a) s1 = Mem.forNS (irrReadNum a) m 0 s1 by unfold forS; rw [show ((l.length : Int) - 0).toNat = m by omega]]
  hlast hloop
  hconv (intsFill_done (a := a) (l := l) hl)
  hconv tableHole_close (f := intsAt) (a := pr) (x := l)
  hret

theorem readStmts_spec {d : Ptr × Ptr} {n : Nat} : ∀ (m : Nat) (done l : List (List Int)) (s s' : Str) (k : Int), k = done.length → n = done.length + m → Irregular.readStmts m s = .ok (l, s') →
    Triple (partStmts d n done) (Mem.forNS (irrReadStmt d.1 d.2) m k s) (fun r => pur (r = s') ∗ partStmts d n (done ++ l))
  | 0, done, l, s, s', k, _, _, h => by
    cases h
    rw [List.append_nil]
    exact Triple.ret (fun h hh => pur_sep_iff.mpr ⟨rfl, hh⟩)
  | m + 1, done, l, s, s', k, hk, hn, h => by
    unfold Irregular.readStmts at h
    obtain ⟨⟨v, s1⟩, h1, h⟩ := ok_pair h
    obtain ⟨j, hj, h⟩ := ok_pair h
    obtain ⟨⟨x, s2⟩, h2, h⟩ := ok_pair h
    obtain ⟨⟨l', s3⟩, h3, h⟩ := ok_pair h
    cases h
    show Triple _ (irrReadStmt d.1 d.2 k s >>= fun s => Mem.forNS (irrReadStmt d.1 d.2) m (k + 1) s) _
    refine Triple.bind (irrReadStmt_spec (d := d) (n := n) hk (by omega) h1 (alloc_nat hj) h2) (fun r => Triple.fact (fun hr => ?_))
    subst hr
    have := readStmts_spec (d := d) (n := n) m (done ++ [x]) l' r s' (k + 1) (by simp; omega) (by simp; omega) h3
    simpa using this

theorem readStmts_len : ∀ {m : Nat} {l : List (List Int)} {s s' : Str}, Irregular.readStmts m s = .ok (l, s') → l.length = m
  | 0, _, _, _, h => by cases h; rfl
  | m + 1, l, s, s', h => by
    unfold Irregular.readStmts at h
    obtain ⟨⟨v, s1⟩, h1, h⟩ := ok_pair h
    obtain ⟨j, hj, h⟩ := ok_pair h
    obtain ⟨⟨x, s2⟩, h2, h⟩ := ok_pair h
    obtain ⟨⟨l', s3⟩, h3, h⟩ := ok_pair h
    cases h
    simp [readStmts_len h3]

theorem newStr_spec {o : Option Str} : Triple emp (newStr o) (fun w => uriAt w o) := by
  cases o with
  | none => exact Triple.ret (fun h hh => ⟨rfl, hh⟩)
  | some t => exact Triple.alloc _

theorem irrReadStr_spec {e : Char → Bool} {a : Ptr} {n : Nat} {done : List (Option Str)} {o : Option Str} {k : Int} {s s1 : Str} (hk : k = done.length) (hn : done.length < n)
    (h : Irregular.dupTok e s = .ok (o, s1)) : Triple (tableFill uriAt a n done) (irrReadStr e a k s) (fun r => pur (r = s1) ∗ tableFill uriAt a n (done ++ [o])) := by
  unfold irrReadStr
  hstep (lift_spec h)
  hstep (newStr_spec (o := o))
  hstep (tableFill_set (f := uriAt) (a := a) (n := n) (l := done) (k := k) hk hn)
  hconv tableHole_close (f := uriAt) (a := a) (x := o)
  hret

theorem readIters_spec {a : Ptr} {n : Nat} : ∀ (m : Nat) (done l : List (Option Str)) (s s' : Str) (k : Int), k = done.length → n = done.length + m → Irregular.readIters m s = .ok (l, s') →
    Triple (tableFill uriAt a n done) (Mem.forNS (irrReadStr Irregular.blank a) m k s) (fun r => pur (r = s') ∗ tableFill uriAt a n (done ++ l))
  | 0, done, l, s, s', k, _, _, h => by
    cases h
    rw [List.append_nil]
    exact Triple.ret (fun h hh => pur_sep_iff.mpr ⟨rfl, hh⟩)
  | m + 1, done, l, s, s', k, hk, hn, h => by
    unfold Irregular.readIters at h
    obtain ⟨⟨v, s1⟩, h1, h⟩ := ok_pair h
    obtain ⟨⟨l', s2⟩, h2, h⟩ := ok_pair h
    cases h
    show Triple _ (irrReadStr Irregular.blank a k s >>= fun s => Mem.forNS (irrReadStr Irregular.blank a) m (k + 1) s) _
    refine Triple.bind (irrReadStr_spec (n := n) hk (by omega) h1) (fun r => Triple.fact (fun hr => ?_))
    subst hr
    have := readIters_spec (a := a) (n := n) m (done ++ [v]) l' r s' (k + 1) (by simp; omega) (by simp; omega) h2
    simpa using this

theorem readIters_len : ∀ {m : Nat} {l : List (Option Str)} {s s' : Str}, Irregular.readIters m s = .ok (l, s') → l.length = m
  | 0, _, _, _, h => by cases h; rfl
  | m + 1, l, s, s', h => by
    unfold Irregular.readIters at h
    obtain ⟨⟨v, s1⟩, h1, h⟩ := ok_pair h
    obtain ⟨⟨l', s2⟩, h2, h⟩ := ok_pair h
    cases h
    simp [readIters_len h2]

theorem irrReadPred_spec {d : Ptr × Ptr × Ptr} {n m : Nat} {done : List Pred} {l : List (Option Str)} {o : Option Str} {k v : Int} {s s1 s2 s3 : Str} (hk : k = done.length) (hn : done.length < n)
    (h1 : Irregular.readNum s = .ok (v, s1)) (hv : v = m) (h2 : Irregular.readIters m s1 = .ok (l, s2)) (h3 : Irregular.dupTok Irregular.eol s2 = .ok (o, s3)) :
    Triple (partPreds d n done) (irrReadPred d k s) (fun r => pur (r = s3) ∗ partPreds d n (done ++ [⟨l, o⟩])) := by
  have hl := readIters_len h2
  have hv : v = (l.length : Int) := by omega
  subst hv
  obtain ⟨nb, it, bo⟩ := d
  unfold partPreds
  simp only [List.map_append, List.map_cons, List.map_nil]
  unfold irrReadPred
  hstep (lift_spec h1)
  hstep (intsFill_put (a := nb) (n := n) (l := done.map fun x => (x.iters.length : Int)) (k := k) (v := (l.length : Int)) (by simp [hk]) (by simpa using hn))
  hstep (mallocPtrs_fill (f := uriAt) (m := m) (by omega))
  hstep (tableFill_set (f := tableAt uriAt) (a := it) (n := n) (l := done.map Pred.iters) (k := k) (by simp [hk]) (by simpa using hn))
  have hloop := readIters_spec (a := a) (n := m) m [] l s1 s2 0 rfl (by simp) h2
  rw [List.nil_append] at hloop
  rw [show forS 0 (l.length : Int) (irrReadStr Irregular.blank a) s1 = Mem.forNS (irrReadStr Irregular.blank a) m 0 s1 by unfold forS; rw [show ((l.length : Int) - 0).toNat = m by omega]]
  hstep hloop
  hconv (tableFill_done (f := uriAt) (a := a) (l := l) hl)
  hconv tableHole_close (f := tableAt uriAt) (a := it) (x := l)
  hlast (irrReadStr_spec (a := bo) (n := n) (done := done.map Pred.body) (k := k) (by simp [hk]) (by simpa using hn) h3)
  hret

theorem readPreds_spec {d : Ptr × Ptr × Ptr} {n : Nat} : ∀ (m : Nat) (done l : List Pred) (s s' : Str) (k : Int), k = done.length → n = done.length + m → Irregular.readPreds m s = .ok (l, s') →
    Triple (partPreds d n done) (Mem.forNS (irrReadPred d) m k s) (fun r => pur (r = s') ∗ partPreds d n (done ++ l))
  | 0, done, l, s, s', k, _, _, h => by
    cases h
    rw [List.append_nil]
    exact Triple.ret (fun h hh => pur_sep_iff.mpr ⟨rfl, hh⟩)
  | m + 1, done, l, s, s', k, hk, hn, h => by
    unfold Irregular.readPreds at h
    obtain ⟨⟨v, s1⟩, h1, h⟩ := ok_pair h
    obtain ⟨j, hj, h⟩ := ok_pair h
    obtain ⟨⟨x, s2⟩, h2, h⟩ := ok_pair h
    obtain ⟨⟨o, s3⟩, h3, h⟩ := ok_pair h
    obtain ⟨⟨l', s4⟩, h4, h⟩ := ok_pair h
    cases h
    show Triple _ (irrReadPred d k s >>= fun s => Mem.forNS (irrReadPred d) m (k + 1) s) _
    refine Triple.bind (irrReadPred_spec (d := d) (n := n) hk (by omega) h1 (alloc_nat hj) h2 h3) (fun r => Triple.fact (fun hr => ?_))
    subst hr
    have := readPreds_spec (d := d) (n := n) m (done ++ [⟨x, o⟩]) l' r s' (k + 1) (by simp; omega) (by simp; omega) h4
    simpa using this

theorem readPreds_len : ∀ {m : Nat} {l : List Pred} {s s' : Str}, Irregular.readPreds m s = .ok (l, s') → l.length = m
  | 0, _, _, _, h => by cases h; rfl
  | m + 1, l, s, s', h => by
    unfold Irregular.readPreds at h
    obtain ⟨⟨v, s1⟩, h1, h⟩ := ok_pair h
    obtain ⟨j, hj, h⟩ := ok_pair h
    obtain ⟨⟨x, s2⟩, h2, h⟩ := ok_pair h
    obtain ⟨⟨o, s3⟩, h3, h⟩ := ok_pair h
    obtain ⟨⟨l', s4⟩, h4, h⟩ := ok_pair h
    cases h
    simp [readPreds_len h4]

theorem irrReadStmts_spec {r q0 q1 q2 q3 q4 : Ptr} {is : List Int} {n : Nat} {k : Int} {l : List (List Int)} {s s' : Str} (hk : k = n) (h : Irregular.readStmts n s = .ok (l, s')) :
    Triple (r ↦ .node is [q0, q1, q2, q3, q4]) (irrReadStmts r k s) (fun t => ex fun np => ex fun pr => pur (t = s') ∗ r ↦ .node is [q0, q1, q2, np, pr] ∗ stmtListsAt np pr l) := by
  have hl := readStmts_len h
  subst hk
  unfold irrReadStmts
  hstep (mallocPtrs_fill (f := intsAt) (m := n) rfl)
  hstep (setPtr_spec (p := r) (l' := [q0, q1, q2, q3, pr]) rfl)
  hstep (mallocInts_fill (m := n) rfl)
  hstep (setPtr_spec (p := r) (l' := [q0, q1, q2, np, pr]) rfl)
  have hloop := readStmts_spec (d := (np, pr)) (n := n) n [] l s s' 0 rfl (by simp) h
  rw [List.nil_append] at hloop
  rw [show forS 0 (n : Int) (irrReadStmt np pr) s = Mem.forNS (irrReadStmt np pr) n 0 s by unfold forS; rw [show ((n : Int) - 0).toNat = n by omega]]
  have e : (intsFill np n [] ∗ tableFill intsAt pr n []) = partStmts (np, pr) n [] := rfl
  refine Triple.pre ?_ (fun h hh => ?_) (P := r ↦ .node is [q0, q1, q2, np, pr] ∗ partStmts (np, pr) n [])
  · hlast hloop
    hconv (partStmts_done (d := (np, pr)) (n := n) (l := l) hl)
    refine Triple.ret (fun h hh => ?_)
    exact ⟨np, pr, pur_sep_iff.mpr ⟨rfl, hh.perm (by ac_rfl)⟩⟩
  · rw [← e]
    exact hh.perm (by ac_rfl)

theorem irrReadPreds_spec {r q0 q1 q2 q3 q4 : Ptr} {a b n : Int} {s : Str} {x y : Int × Str} {t : Int} {m : Nat} {ps : List Pred} {s5 : Str} (h1 : Irregular.readNum s = .ok x) (h2 : Irregular.readNum x.2 = .ok y)
    (h3 : Irregular.addI x.1 y.1 = .ok t) (ht : t = m) (h4 : Irregular.readPreds m y.2 = .ok (ps, s5)) :
    Triple (r ↦ .node [a, b, n] [q0, q1, q2, q3, q4]) (irrReadPreds r s) (fun _ => ex fun nb => ex fun it => ex fun bo => r ↦ .node [x.1, y.1, n] [nb, it, bo, q3, q4] ∗ predsAt nb it bo ps) := by
  have hl := readPreds_len h4
  unfold irrReadPreds
  hstep (lift_spec h1)
  hstep (setInt_spec (p := r) (is' := [x.1, b, n]) rfl)
  hstep (lift_spec h2)
  hstep (setInt_spec (p := r) (is' := [x.1, y.1, n]) rfl)
  refine Triple.liftStep h3 ?_
  hstep (irrArrays_spec (r := r) (n := m) ht)
  have hloop := readPreds_spec (d := d) (n := m) m [] ps y.2 s5 0 rfl (by simp) h4
  rw [List.nil_append] at hloop
  rw [show forS 0 t (irrReadPred d) y.2 = Mem.forNS (irrReadPred d) m 0 y.2 by unfold forS; rw [show (t - 0).toNat = m by omega]]
  hstep hloop
  hconv (partPreds_done (d := d) (n := m) (l := ps) hl)
  refine Triple.ret (fun h hh => ?_)
  exact ⟨d.1, d.2.1, d.2.2, hh.perm (by ac_rfl)⟩

/-- C78: `osl_irregular_sread` makes a new structure with what has been read, and cuts the string after its first word. -/
theorem irregular_sread_memory {p : Ptr} {s r : Option Str} {y : Option Irregular} (h : Irregular.sread s = .ok (y, r)) :
    Triple (uriAt p s) (irrSread p) (fun q => optAt irrAt q y ∗ uriAt p r) := by
  unfold irrSread
  cases s with
  | none =>
    cases h
    refine Triple.fact1 (fun hp => ?_)
    rw [if_pos hp]
    refine Triple.ret (fun h hh => ?_)
    rw [optAt_none]
    exact pur_sep_iff.mpr ⟨rfl, hp, hh⟩
  | some s =>
    show Triple (p ↦ .chars s) _ _
    refine Triple.of_fact (φ := p ≠ 0) (fun h hh => pto_ne h hh) (fun hp => ?_)
    rw [if_neg hp]
    hstep (loadChars_spec (p := p) (w := s))
    simp only [Irregular.sread] at h
    by_cases hs : s.length > MAX_STRING
    · rw [if_pos hs] at h
      cases h
    rw [if_neg hs] at h ⊢
    obtain ⟨⟨v, s1⟩, h1, h⟩ := ok_pair h
    obtain ⟨n, hn, h⟩ := ok_pair h
    obtain ⟨⟨l, s2⟩, h2, h⟩ := ok_pair h
    obtain ⟨⟨c, s3⟩, h3, h⟩ := ok_pair h
    obtain ⟨⟨e, s4⟩, h4, h⟩ := ok_pair h
    obtain ⟨t, h5, h⟩ := ok_pair h
    obtain ⟨m, hm, h⟩ := ok_pair h
    obtain ⟨⟨ps, s5⟩, h6, h⟩ := ok_pair h
    cases h
    have hv := alloc_nat hn
    subst hv
    have ht := alloc_nat hm
    have hl := readStmts_len h2
    have hps := readPreds_len h6
    hstep irrMalloc_spec
    hstep (lift_spec (a := ((n : Int), s1)) h1)
    hstep (Triple.store p (.chars s) (.chars (firstTok s)))
    hstep (setInt_spec (p := r) (is' := [0, 0, (n : Int)]) rfl)
    hstep (irrReadStmts_spec (r := r) (n := n) (l := l) (s := s1) (s' := s2) rfl h2)
    hstep (irrReadPreds_spec (r := r) (s := s2) (x := (c, s3)) (y := (e, s4)) (ps := ps) (n := (n : Int)) h3 h4 h5 ht h6)
    refine Triple.ret (fun h hh => ?_)
    refine sep_mono (P := irrAt r { nbControl := c, nbExit := e, preds := ps, stmts := l }) (fun _ h => h) (fun _ h => h) ?_
    have hn : (n : Int) = (l.length : Int) := by omega
    have h7 := irrAt_close (nb := nb) (it := it) (bo := bo) (np := np) (pr := pr) (p := r) (c := c) (e := e) (s := (n : Int)) (x := { nbControl := c, nbExit := e, preds := ps, stmts := l }) rfl rfl hn.symm
    refine sep_mono h7 (fun _ h => h) ?_
    show ((_ ∗ predsAt nb it bo ps ∗ stmtListsAt np pr l) ∗ p ↦ .chars (firstTok s)) h
    exact hh.perm (by ac_rfl)

end Osl.Mem
