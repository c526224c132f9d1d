import Verif.IntLemmas
/-!
# Model of source/vector.c

A vector (include/osl/vector.h, `struct osl_vector`) is its precision and the list of its
entries; the field `size` is the length of the list (`osl_vector_pmalloc` is the only
allocator and nothing resizes a vector).  A pointer argument is an `Option Vec`, `none` being
NULL.  Functions which mutate the vector return its new value.
-/

namespace Osl

/-- `struct osl_vector` (include/osl/vector.h). -/
structure Vec where
  precision : Int
  v : List Int
deriving Repr, DecidableEq

/-- C field `size`. -/
abbrev Vec.size (x : Vec) : Nat := x.v.length

/-- Loop `for (i = 0; i < n; i++) out[i] = f(a[i], b[i])` over two arrays; running past the end
of one of them is undefined. -/
def zipOut (f : Int → Int → Out Int) : List Int → List Int → Out (List Int)
  | [], [] => .ok []
  | a :: as, b :: bs =>
    match f a b with
    | .ok x =>
      match zipOut f as bs with
      | .ok xs => .ok (x :: xs)
      | .err => .err
      | .ub => .ub
    | .err => .err
    | .ub => .ub
  | _, _ => .ub

namespace Vec

/-- `osl_vector_pmalloc` (source/vector.c:148-163). A negative size makes the allocation fail
(the request exceeds `PTRDIFF_MAX`), reported by `OSL_malloc`. -/
def pmalloc (c : Cfg) (precision : Int) (size : Int) : Out Vec :=
  if size < 0 then .err
  else
    match Out.mapOut (fun z => OInt.init_set_si c precision z) (List.replicate size.toNat 0) with
    | .ok l => .ok ⟨precision, l⟩
    | .err => .err
    | .ub => .ub

/-- `osl_vector_add_scalar` (source/vector.c:212-229); `scalar` is a C `int`. -/
def add_scalar (c : Cfg) (vector : Option Vec) (scalar : Int) : Out Vec :=
  match vector with
  | none => .err
  | some x =>
    if x.size < 2 then .err
    else do
      let _ ← pmalloc c x.precision x.size
      let l ← Out.mapOut (OInt.assign c x.precision) x.v
      let last ← OInt.add_si c x.precision (x.v.getLastD 0) scalar
      return ⟨x.precision, l.dropLast ++ [last]⟩

/-- `osl_vector_add` (source/vector.c:240-253). -/
def add (c : Cfg) (v1 v2 : Option Vec) : Out Vec :=
  match v1, v2 with
  | some x, some y =>
    if x.size ≠ y.size ∨ x.precision ≠ y.precision then .err
    else do
      let _ ← pmalloc c x.precision x.size
      let l ← zipOut (OInt.add c x.precision) x.v y.v
      return ⟨x.precision, l⟩
  | _, _ => .err

/-- `osl_vector_sub` (source/vector.c:264-277). -/
def sub (c : Cfg) (v1 v2 : Option Vec) : Out Vec :=
  match v1, v2 with
  | some x, some y =>
    if x.size ≠ y.size ∨ x.precision ≠ y.precision then .err
    else do
      let _ ← pmalloc c x.precision x.size
      let l ← zipOut (OInt.sub c x.precision) x.v y.v
      return ⟨x.precision, l⟩
  | _, _ => .err

/-- `osl_vector_tag_inequality` (source/vector.c:287-291). -/
def tag_inequality (c : Cfg) (vector : Option Vec) : Out Vec :=
  match vector with
  | none => .err
  | some x =>
    match x.v with
    | [] => .err
    | _ :: t => do
      let one ← OInt.set_si c x.precision 1
      return ⟨x.precision, one :: t⟩

/-- `osl_vector_tag_equality` (source/vector.c:301-305). -/
def tag_equality (c : Cfg) (vector : Option Vec) : Out Vec :=
  match vector with
  | none => .err
  | some x =>
    match x.v with
    | [] => .err
    | _ :: t => do
      let zero ← OInt.set_si c x.precision 0
      return ⟨x.precision, zero :: t⟩

/-- The comparison loop of `osl_vector_equal` (source/vector.c:325-327). -/
def equalLoop (c : Cfg) (p : Int) : List Int → List Int → Out Bool
  | [], _ => .ok true
  | _ :: _, [] => .ub
  | a :: as, b :: bs =>
    match OInt.ne c p a b with
    | .ok true => .ok false
    | .ok false => equalLoop c p as bs
    | .err => .err
    | .ub => .ub

/-- `osl_vector_equal` (source/vector.c:315-330): two NULL pointers are equal; one NULL pointer
is dereferenced at line 322. (The shortcut for two identical non NULL pointers, line 319,
gives the same answer as the loop and is not modelled.) -/
def equal (c : Cfg) (v1 v2 : Option Vec) : Out Bool :=
  match v1, v2 with
  | none, none => .ok true
  | some x, some y =>
    if x.size ≠ y.size ∨ x.precision ≠ y.precision then .ok false
    else equalLoop c x.precision x.v y.v
  | _, _ => .ub

/-- `osl_vector_mul_scalar` (source/vector.c:340-348). -/
def mul_scalar (c : Cfg) (vector : Option Vec) (scalar : Int) : Out Vec :=
  match vector with
  | none => .ub
  | some x => do
    let _ ← pmalloc c x.precision x.size
    let l ← Out.mapOut (fun a => OInt.mul_si c x.precision a scalar) x.v
    return ⟨x.precision, l⟩

/-- The loop of `osl_vector_is_scalar` (source/vector.c:363-365). -/
def isScalarLoop (c : Cfg) (p : Int) : List Int → Out Bool
  | [] => .ok true
  | a :: as =>
    match OInt.zero c p a with
    | .ok true => isScalarLoop c p as
    | .ok false => .ok false
    | .err => .err
    | .ub => .ub

/-- `osl_vector_is_scalar` (source/vector.c:357-367). -/
def is_scalar (c : Cfg) (vector : Option Vec) : Out Bool :=
  match vector with
  | none => .ok false
  | some x => isScalarLoop c x.precision x.v.dropLast

end Vec

/-! ## Lemmas -/

theorem zipOut_ok {f : Int → Int → Out Int} {g : Int → Int → Int} {l l' : List Int}
    (hlen : l.length = l'.length) (h : ∀ p ∈ l.zip l', f p.1 p.2 = .ok (g p.1 p.2)) :
    zipOut f l l' = .ok (List.zipWith g l l') := by
  induction l generalizing l' with
  | nil => cases l' with
    | nil => rfl
    | cons => simp at hlen
  | cons a as ih => cases l' with
    | nil => simp at hlen
    | cons b bs =>
      have h1 := h (a, b) (by simp)
      have h2 := ih (l' := bs) (by simpa using hlen) (fun p hp => h p (by simp [hp]))
      simp at h1
      simp [zipOut, h1, h2]

theorem zipOut_inv {f : Int → Int → Out Int} {g : Int → Int → Int} {l l' r : List Int}
    (hg : ∀ a b x, f a b = .ok x → x = g a b) (h : zipOut f l l' = .ok r) :
    r = List.zipWith g l l' := by
  induction l generalizing l' r with
  | nil => cases l' with
    | nil => simp [zipOut] at h; simp [h]
    | cons => simp [zipOut] at h
  | cons a as ih => cases l' with
    | nil => simp [zipOut] at h
    | cons b bs =>
      simp only [zipOut] at h
      cases hf : f a b with
      | ok x =>
        cases hz : zipOut f as bs with
        | ok xs =>
          rw [hf, hz] at h
          injection h with h
          subst h
          simp [hg a b x hf, ih hz]
        | err => rw [hf, hz] at h; cases h
        | ub => rw [hf, hz] at h; cases h
      | err => rw [hf] at h; cases h
      | ub => rw [hf] at h; cases h

theorem Vec.pmalloc_ok {c : Cfg} {p : Int} (hk : kind c p ≠ none) (n : Nat) :
    Vec.pmalloc c p n = .ok ⟨p, List.replicate n 0⟩ := by
  obtain ⟨k, hk⟩ := Option.ne_none_iff_exists'.mp hk
  have h : Out.mapOut (fun z => OInt.init_set_si c p z) (List.replicate n (0 : Int)) =
      .ok ((List.replicate n (0 : Int)).map id) :=
    Out.mapOut_ok (fun a _ => by simp [OInt.init_set_si, hk])
  unfold Vec.pmalloc
  rw [if_neg (by omega)]
  simp only [Int.toNat_natCast, h, List.map_id]

theorem mapOut_assign {c : Cfg} {p : Int} (hk : kind c p ≠ none) (l : List Int) :
    Out.mapOut (OInt.assign c p) l = .ok l := by
  obtain ⟨k, hk⟩ := Option.ne_none_iff_exists'.mp hk
  have h : Out.mapOut (OInt.assign c p) l = .ok (l.map id) :=
    Out.mapOut_ok (fun a _ => by simp [OInt.assign, hk])
  simpa using h

end Osl
