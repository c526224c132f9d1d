import Verif.ExtBase
/-!
# Model of the extensions textual, comment, clay, null and coordinates

(source/extensions/textual.c, comment.c, clay.c, null.c, coordinates.c; the `idump` functions are in Verif/Dump.lean.)
-/

namespace Osl
namespace Ext

/-- `osl_textual_t` (include/osl/extensions/textual.h:80-82). -/
structure Textual where
  textual : Option Str
deriving Repr, DecidableEq

namespace Textual

/-- `osl_textual_sprint` (source/extensions/textual.c:168-171): always NULL. -/
def sprint (_ : Option Textual) : Out (Option Str) := .ok none

/-- `osl_textual_sread` (source/extensions/textual.c:187-200). -/
def sread : Option Str → Out (Option Textual × Option Str)
  | none => .ok (none, none)
  | some s => .ok (some { textual := strdup (some s) }, some [])

/-- `osl_textual_clone` (source/extensions/textual.c:248-258). -/
def clone : Option Textual → Out (Option Textual)
  | none => .ok none
  | some t => .ok (some { textual := strdup t.textual })

/-- `osl_textual_equal` (source/extensions/textual.c:292-296): always 1. -/
def equal (_ _ : Option Textual) : Out Bool := .ok true

/-- The interface (source/extensions/textual.c:305-318). -/
def ops : Ops Textual := { sprint := sprint, sread := sread, clone := clone, equal := equal }

end Textual

/-- `osl_comment_t` (include/osl/extensions/comment.h:80-82). -/
structure Comment where
  comment : Option Str
deriving Repr, DecidableEq

namespace Comment

/-- `osl_comment_sprint` (source/extensions/comment.c:138-156). -/
def sprint : Option Comment → Out (Option Str)
  | none => .ok none
  | some c => do
    let s ← str c.comment
    let b ← buf s
    let r ← Util.emit [b]
    return some r

/-- `osl_comment_sread` (source/extensions/comment.c:172-191).  Line 188 moves the local variable only: the position of
the caller is unchanged. -/
def sread : Option Str → Out (Option Comment × Option Str)
  | none => .ok (none, none)
  | some s => if s.length > MAX_STRING then .err else .ok (some { comment := strdup (some s) }, some s)

/-- `osl_comment_clone` (source/extensions/comment.c:239-249). -/
def clone : Option Comment → Out (Option Comment)
  | none => .ok none
  | some c => .ok (some { comment := strdup c.comment })

/-- `osl_comment_equal` (source/extensions/comment.c:259-277): the result of the comparison of line 269 is ignored. -/
def equal : Option Comment → Option Comment → Out Bool
  | none, none => .ok true
  | some a, some b => do
    let _ ← strEq a.comment b.comment
    return true
  | _, _ => .ok false

/-- The interface (source/extensions/comment.c:285-298). -/
def ops : Ops Comment := { sprint := sprint, sread := sread, clone := clone, equal := equal }

end Comment

/-- `osl_clay_t` (include/osl/extensions/clay.h:80-82). -/
structure Clay where
  script : Option Str
deriving Repr, DecidableEq

namespace Clay

/-- `osl_clay_sprint` (source/extensions/clay.c:137-155). -/
def sprint : Option Clay → Out (Option Str)
  | none => .ok none
  | some c => do
    let s ← str c.script
    let b ← buf s
    let r ← Util.emit [b]
    return some r

/-- `osl_clay_sread` (source/extensions/clay.c:171-197); the position of the caller is unchanged (line 194). -/
def sread : Option Str → Out (Option Clay × Option Str)
  | none => .ok (none, none)
  | some s =>
    if s.length > MAX_STRING then .err
    else .ok (some { script := strdup (some (s.dropWhile (fun c => c == '\n'))) }, some s)

/-- `osl_clay_clone` (source/extensions/clay.c:245-255). -/
def clone : Option Clay → Out (Option Clay)
  | none => .ok none
  | some c => .ok (some { script := strdup c.script })

/-- `osl_clay_equal` (source/extensions/clay.c:265-280). -/
def equal : Option Clay → Option Clay → Out Bool
  | none, none => .ok true
  | some a, some b => strEq a.script b.script
  | _, _ => .ok false

/-- The interface (source/extensions/clay.c:288-301). -/
def ops : Ops Clay := { sprint := sprint, sread := sread, clone := clone, equal := equal }

end Clay

/-- `osl_null_t` (include/osl/extensions/null.h:79-80): no field. -/
structure Null where
deriving Repr, DecidableEq

namespace Null

/-- `osl_null_sprint` (source/extensions/null.c:121-131). -/
def sprint : Option Null → Out (Option Str)
  | none => .ok none
  | some _ => .ok (some [])

/-- `osl_null_sread` (source/extensions/null.c:147-162). -/
def sread : Option Str → Out (Option Null × Option Str)
  | none => .ok (none, none)
  | some s => .ok (some {}, some s)

/-- `osl_null_clone` (source/extensions/null.c:206-214). -/
def clone : Option Null → Out (Option Null)
  | none => .ok none
  | some _ => .ok (some {})

/-- `osl_null_equal` (source/extensions/null.c:224-234). -/
def equal : Option Null → Option Null → Out Bool
  | none, none => .ok true
  | some _, some _ => .ok true
  | _, _ => .ok false

/-- The interface (source/extensions/null.c:242-255). -/
def ops : Ops Null := { sprint := sprint, sread := sread, clone := clone, equal := equal }

end Null

/-- `osl_coordinates_t` (include/osl/extensions/coordinates.h:81-88). -/
structure Coordinates where
  name : Option Str
  line_start : Int
  line_end : Int
  column_start : Int
  column_end : Int
  indent : Int
deriving Repr, DecidableEq

namespace Coordinates

/-- `osl_coordinates_sprint` (source/extensions/coordinates.c:152-181). -/
def sprint : Option Coordinates → Out (Option Str)
  | none => .ok none
  | some c => do
    let name ← str c.name
    let b1 ← buf ("# File name\n".toList ++ name ++ "\n".toList)
    let b2 ← buf ("# Starting line and column\n".toList ++ showInt c.line_start ++ " ".toList ++ showInt c.column_start ++ "\n".toList)
    let b3 ← buf ("# Ending line and column\n".toList ++ showInt c.line_end ++ " ".toList ++ showInt c.column_end ++ "\n".toList)
    let b4 ← buf ("# Indentation\n".toList ++ showInt c.indent ++ "\n".toList)
    let r ← Util.emit [b1, b2, b3, b4]
    return some r

/-- `osl_coordinates_sread` (source/extensions/coordinates.c:197-221). -/
def sread : Option Str → Out (Option Coordinates × Option Str)
  | none => .ok (none, none)
  | some s => do
    let (name, s) ← Util.read_line s
    let (ls, s) ← Util.read_int s
    let (cs, s) ← Util.read_int s
    let (le, s) ← Util.read_int s
    let (ce, s) ← Util.read_int s
    let (indent, s) ← Util.read_int s
    return (some { name := some name, line_start := ls, line_end := le, column_start := cs, column_end := ce, indent := indent }, some s)

/-- `osl_coordinates_clone` (source/extensions/coordinates.c:273-289). -/
def clone : Option Coordinates → Out (Option Coordinates)
  | none => .ok none
  | some c => .ok (some { name := strdup c.name, line_start := c.line_start, line_end := c.line_end, column_start := c.column_start, column_end := c.column_end, indent := c.indent })

/-- `osl_coordinates_equal` (source/extensions/coordinates.c:299-338). -/
def equal : Option Coordinates → Option Coordinates → Out Bool
  | none, none => .ok true
  | some a, some b => do
    let e ← strEq a.name b.name
    if !e then .ok false
    else if a.line_start ≠ b.line_start then .ok false
    else if a.column_start ≠ b.column_start then .ok false
    else if a.line_end ≠ b.line_end then .ok false
    else if a.column_end ≠ b.column_end then .ok false
    else if a.indent ≠ b.indent then .ok false
    else .ok true
  | _, _ => .ok false

/-- The interface (source/extensions/coordinates.c:346-359). -/
def ops : Ops Coordinates := { sprint := sprint, sread := sread, clone := clone, equal := equal }

end Coordinates
end Ext
end Osl
