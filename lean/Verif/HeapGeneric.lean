import Verif.HeapStringsProps
import Verif.Generic
/-!
# Interfaces and generics in memory (source/interface.c, source/generic.c)

A node of an interface list (`osl_interface_t`, include/osl/interface.h:86-96) is a block with the address of its URI, its function pointers (numbers, as
in Verif/Interface.lean) and `next`.  A generic (`osl_generic_t`, include/osl/generic.h:77-81) is an array of three pointers: `interface`, `data`,
`next`.  What the functions `free` and `clone` of an interface do is a parameter, `DataFns`.
-/

namespace Osl.Mem

/-- The fields of an interface. -/
structure IfaceRec where
  uri : Ptr
  fns : Fns
  next : Ptr

def asIface : Block → Out IfaceRec
  | .iface u f n => .ok ⟨u, f, n⟩
  | _ => .ub

def loadIface (p : Ptr) : M IfaceRec := do
  let b ← load p
  lift (asIface b)

/-- The `next` field of an interface (include/osl/interface.h:95). -/
def ifaceNext : Next where
  get p := do
    let i ← loadIface p
    pure i.next
  set p n := do
    let i ← loadIface p
    store p (.iface i.uri i.fns n)

/-- The function pointers which `osl_interface_malloc` sets to NULL (source/interface.c:211-217): numbers which are overwritten before they are used. -/
def nullFns : Fns := Ifaces.fnsOf 0

/-- `osl_interface_malloc` (source/interface.c:206-221). -/
def ifaceMalloc [Allocator] : M Ptr := alloc (.iface 0 nullFns 0)

/-- Assignment of the URI and the function pointers of an interface. -/
def setIface (p uri : Ptr) (fns : Fns) : M Unit := do
  let i ← loadIface p
  store p (.iface uri fns i.next)

/-- `if (interface->URI != NULL) free(interface->URI)` (source/interface.c:235-236). -/
def freeUri (u : Ptr) : M Unit := if u ≠ 0 then free u else pure ()

/-- One turn of the loop of `osl_interface_free` (source/interface.c:234-239). -/
def ifaceFreeStep (p : Ptr) : M Ptr := do
  let i ← loadIface p
  freeUri i.uri
  free p
  pure i.next

/-- `osl_interface_free` (source/interface.c:229-241). -/
def ifaceFree (p : Ptr) : M Unit := freeAll ifaceFreeStep p

/-- `osl_interface_number` (source/interface.c:254-262). -/
def ifaceNumber (p : Ptr) : M Nat := countAll ifaceNext p

/-- `strcmp(a, b) == 0`. -/
def strEq (a b : Ptr) : M Bool := do
  let x ← load a
  let s ← lift (asChars x)
  let y ← load b
  let t ← lift (asChars y)
  pure (decide (s = t))

/-- `(u != NULL) && (!strcmp(u, v))`. -/
def uriEq (u v : Ptr) : M Bool := if u ≠ 0 then strEq u v else pure false

/-- The test of `osl_interface_lookup` (source/interface.c:350-351). -/
def ifaceTest (uri p : Ptr) : M Bool := do
  let i ← loadIface p
  uriEq i.uri uri

/-- `osl_interface_lookup` (source/interface.c:345-358). -/
def ifaceLookup (list uri : Ptr) : M Ptr := if uri = 0 then pure 0 else findNode ifaceNext (ifaceTest uri) list

/-- `if (osl_interface_lookup(*list, URI) != NULL) OSL_error(...)` (source/interface.c:184-185). -/
def ifaceUnknown (list uri : Ptr) : M Unit := do
  let q ← ifaceLookup list uri
  if q ≠ 0 then fail else pure ()

/-- One turn of the check of `osl_interface_add` (source/interface.c:181-186). -/
def ifaceCheck (list p : Ptr) : M Unit := do
  let i ← loadIface p
  if i.uri = 0 then fail else ifaceUnknown list i.uri

/-- `osl_interface_add` (source/interface.c:173-196): the new value of `*list`. -/
def ifaceAdd (list interface : Ptr) : M Ptr :=
  if interface ≠ 0 then do
    eachNode ifaceNext (ifaceCheck list) interface
    append ifaceNext list interface
  else pure list

/-- The new node of `osl_interface_nclone` (source/interface.c:277-285). -/
def ifaceCopy [Allocator] (p : Ptr) : M Ptr := do
  let new ← ifaceMalloc
  let i ← loadIface p
  let u ← hStrdup i.uri
  setIface new u i.fns
  pure new

/-- The loop of `osl_interface_nclone` (source/interface.c:276-290), `none` for an infinite number. -/
def ifaceNcloneLoop [Allocator] : Nat → Option Nat → Ptr → Ptr → M Ptr
  | 0, _, p, clone => if p = 0 then pure clone else undef
  | f + 1, n, p, clone =>
    if p = 0 ∨ n = some 0 then pure clone
    else do
      let new ← ifaceCopy p
      let clone ← ifaceAdd clone new
      let q ← ifaceNext.get p
      ifaceNcloneLoop f (n.map (· - 1)) q clone

/-- `osl_interface_nclone` (source/interface.c:272-293). -/
def ifaceNclone [Allocator] (p : Ptr) (n : Int) : M Ptr := do
  let f ← heapSize
  ifaceNcloneLoop f (if n = -1 then none else some n.toNat) p 0

/-- `osl_interface_clone` (source/interface.c:302-304). -/
def ifaceClone [Allocator] (p : Ptr) : M Ptr := ifaceNclone p (-1)

/-- `strcmp` and the comparison of the function pointers (source/interface.c:323-331). -/
def ifaceEqualNodes (p q : Ptr) : M Bool := do
  let i ← loadIface p
  let j ← loadIface q
  let b ← strEq i.uri j.uri
  pure (b && decide (i.fns = j.fns))

/-- `osl_interface_equal` (source/interface.c:314-334). -/
def ifaceEqual (p q : Ptr) : M Bool :=
  if p = q then pure true
  else if p = 0 ∧ q ≠ 0 ∨ p ≠ 0 ∧ q = 0 then pure false
  else ifaceEqualNodes p q

/-- An `osl_..._interface` function, as `osl_strings_interface` (source/strings.c:433-446): `k` is the number of its functions. -/
def ifaceMake [Allocator] (k : Nat) (uri : Str) : M Ptr := do
  let p ← ifaceMalloc
  let u ← alloc (.chars uri)
  setIface p u (Ifaces.fnsOf k)
  pure p

/-- The calls of `osl_interface_add` in `osl_interface_get_default_registry` (source/interface.c:369-390). -/
def ifaceAddAll [Allocator] : Nat → List String → Ptr → M Ptr
  | _, [], registry => pure registry
  | k, u :: us, registry => do
    let p ← ifaceMake k u.toList
    let registry ← ifaceAdd registry p
    ifaceAddAll (k + 1) us registry

/-- `osl_interface_get_default_registry` (source/interface.c:366-393). -/
def ifaceDefault [Allocator] : M Ptr := ifaceAddAll 0 Ifaces.defaultURIs 0

/-! ## Generics -/

/-- What the functions of the interfaces do on the memory (include/osl/interface.h:78-79). -/
structure DataFns where
  free : Nat → Ptr → M Unit
  clone : Nat → Ptr → M Ptr

/-- The `next` field of a generic (include/osl/generic.h:80). -/
def genNext : Next where
  get p := getField p 2
  set p n := setField p 2 n

/-- `osl_generic_malloc` (source/generic.c:452-461). -/
def genMalloc [Allocator] : M Ptr := alloc (.ptrs [0, 0, 0])

/-- `if (generic->data != NULL) free(generic->data)` (source/generic.c:477-480). -/
def genFreeRaw (data : Ptr) : M Unit := if data ≠ 0 then free data else pure ()

/-- The data and the interface of a generic are freed (source/generic.c:473-481). -/
def genFreeContent (O : DataFns) (interface data : Ptr) : M Unit :=
  if interface ≠ 0 then do
    let i ← loadIface interface
    O.free i.fns.free data
    ifaceFree interface
  else genFreeRaw data

/-- One turn of the loop of `osl_generic_free` (source/generic.c:471-485). -/
def genFreeStep (O : DataFns) (p : Ptr) : M Ptr := do
  let next ← genNext.get p
  let i ← getField p 0
  let d ← getField p 1
  genFreeContent O i d
  free p
  pure next

/-- `osl_generic_free` (source/generic.c:468-485). -/
def genFree (O : DataFns) (p : Ptr) : M Unit := freeAll (genFreeStep O) p

/-- `osl_generic_number` (source/generic.c:498-506) and `osl_generic_count` (source/generic.c:561-570). -/
def genCount (p : Ptr) : M Nat := countAll genNext p

/-- The end of `osl_generic_has_URI` (source/generic.c:636-642), for an interface. -/
def ifaceHasURI (interface uri : Ptr) : M Bool := if interface ≠ 0 then ifaceTest uri interface else pure false

/-- `osl_generic_has_URI` (source/generic.c:636-642). -/
def genHasURI (uri p : Ptr) : M Bool :=
  if p = 0 then pure false
  else do
    let i ← getField p 0
    ifaceHasURI i uri

/-- `return x->data` or NULL (source/generic.c:656, 661). -/
def genData (p : Ptr) : M Ptr := if p ≠ 0 then getField p 1 else pure 0

/-- `osl_generic_lookup` (source/generic.c:653-662). -/
def genLookup (p uri : Ptr) : M Ptr := do
  let q ← findNode genNext (genHasURI uri) p
  genData q

/-- `if (osl_generic_lookup(*list, URI) != NULL) OSL_error(...)` (source/generic.c:374-375). -/
def genUnknown (list uri : Ptr) : M Unit := do
  let q ← genLookup list uri
  if q ≠ 0 then fail else pure ()

/-- The check of one interface (source/generic.c:370-375). -/
def genCheckIface (list interface : Ptr) : M Unit :=
  if interface = 0 then fail
  else do
    let i ← loadIface interface
    if i.uri = 0 then fail else genUnknown list i.uri

/-- One turn of the check of `osl_generic_add` (source/generic.c:370-375). -/
def genCheck (list p : Ptr) : M Unit := do
  let i ← getField p 0
  genCheckIface list i

/-- `osl_generic_add` (source/generic.c:363-387): the new value of `*list`. -/
def genAdd (list generic : Ptr) : M Ptr :=
  if generic ≠ 0 then do
    eachNode genNext (genCheck list) generic
    append genNext list generic
  else pure list

/-- The removal of a node after the first one (source/generic.c:409-418). -/
def genUnlink (O : DataFns) (list generic : Ptr) : M Ptr := do
  let f ← heapSize
  let tmp ← beforeLoop genNext generic f list
  let n ← genNext.get tmp
  if n = generic then do
    let m ← genNext.get generic
    genNext.set tmp m
    genNext.set generic 0
    genFree O generic
    pure list
  else pure list

/-- `osl_generic_remove_node` (source/generic.c:396-422): the new value of `*list`. -/
def genRemoveNode (O : DataFns) (list generic : Ptr) : M Ptr :=
  if generic ≠ 0 then
    if list ≠ 0 then
      if list = generic then do
        let n ← genNext.get generic
        genNext.set generic 0
        genFree O generic
        pure n
      else genUnlink O list generic
    else pure list
  else pure list

/-- `osl_generic_remove` (source/generic.c:430-442): the new value of `*list`. -/
def genRemove (O : DataFns) (list uri : Ptr) : M Ptr := do
  let q ← findNode genNext (genHasURI uri) list
  if q ≠ 0 then genRemoveNode O list q else pure list

/-- `osl_generic_shell` (source/generic.c:672-683). -/
def genShell [Allocator] (data interface : Ptr) : M Ptr := do
  let p ← genMalloc
  setField p 1 data
  setField p 0 interface
  pure p

/-- The copy of a generic with an interface (source/generic.c:538-543). -/
def genCopy [Allocator] (O : DataFns) (interface data : Ptr) : M Ptr := do
  let i ← loadIface interface
  let x ← O.clone i.fns.clone data
  let j ← ifaceClone interface
  let new ← genMalloc
  setField new 0 j
  setField new 1 x
  pure new

/-- The copy of one generic and its addition to the list (source/generic.c:537-547): the new value of `clone`. -/
def genCopyAdd [Allocator] (O : DataFns) (p clone : Ptr) : M Ptr := do
  let i ← getField p 0
  let d ← getField p 1
  if i ≠ 0 then do
    let new ← genCopy O i d
    genAdd clone new
  else pure clone

/-- The loop of `osl_generic_nclone` (source/generic.c:536-550). -/
def genNcloneLoop [Allocator] (O : DataFns) : Nat → Ptr → Ptr → M Ptr
  | 0, _, clone => pure clone
  | n + 1, p, clone =>
    if p = 0 then pure clone
    else do
      let clone ← genCopyAdd O p clone
      let q ← genNext.get p
      genNcloneLoop O n q clone

/-- `osl_generic_nclone` (source/generic.c:527-552), the number of nodes being known. -/
def genNcloneN [Allocator] (O : DataFns) (p : Ptr) (n : Nat) : M Ptr := genNcloneLoop O n p 0

/-- `osl_generic_nclone` (source/generic.c:527-552). -/
def genNclone [Allocator] (O : DataFns) (p : Ptr) (n : Int) : M Ptr :=
  if n < 0 then do
    let k ← genCount p
    genNcloneN O p k
  else genNcloneN O p n.toNat

/-- `osl_generic_clone` (source/generic.c:515-517). -/
def genClone [Allocator] (O : DataFns) (p : Ptr) : M Ptr := genNclone O p (-1)

end Osl.Mem
