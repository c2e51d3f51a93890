import Verif.DebugReq

/-!
# The indented form `{:#?}` of the `Debug` text

In this form the builders of `core::fmt` write every field or entry on a line of its own, indented by four spaces, and
close on a line of their own; an empty list or set stays on one line.  A value handed over as
`format_args!("{:?}", ..)` or written by `write!` is in the one-line form.
-/

namespace Fuse

/-- The fields that are handed over as `format_args!("{:?}", ..)`: the name of the structure and of the field.
fuse/fuse.rs:260-263, fuse/lock.rs:123 and 283, fuse/operations/{getattr.rs:70, getxattr.rs:70, listxattr.rs:65,
mknod.rs:96, read.rs:119, readdir.rs:94 and 165, readdirplus.rs:93, release.rs:104, releasedir.rs:86,
setattr.rs:155-165, write.rs:189}, fuse/fuse.rs:354 and 356, fuse/node_attr.rs:297-299.
(The `umask` of MKDIR and MKNOD has no structure.) -/
def oneLineFields : List (String × String) :=
  [("RequestHeader", "node_id"), ("RequestHeader", "process_id"), ("LockRange", "length"), ("Lock", "process_id"),
    ("GetattrRequest", "handle"), ("GetxattrRequest", "size"), ("ListxattrRequest", "size"),
    ("MknodRequest", "device_number"), ("ReadRequest", "lock_owner"), ("ReaddirRequest", "offset"),
    ("ReaddirplusRequest", "offset"), ("ReleaseRequest", "lock_owner"), ("ReleasedirRequest", "lock_owner"),
    ("SetattrRequest", "handle"), ("SetattrRequest", "size"), ("SetattrRequest", "lock_owner"),
    ("SetattrRequest", "atime"), ("SetattrRequest", "mtime"), ("SetattrRequest", "ctime"), ("SetattrRequest", "mode"),
    ("SetattrRequest", "user_id"), ("SetattrRequest", "group_id"), ("WriteRequest", "lock_owner"),
    ("ReaddirEntry", "file_type"), ("ResponseHeader", "request_id"),
    ("ResponseHeader", "error"), ("NodeAttr", "atime"), ("NodeAttr", "mtime"), ("NodeAttr", "ctime")]

/-- The texts written by `write!` although they look like a `debug_tuple`: fuse/lock.rs:220, fuse/kernel.rs:629. -/
def oneLineTuples : List String := ["LockMode", "fuse_opcode"]

/-- The start of a line. -/
def indent (n : Nat) : Bytes := List.replicate n 0x20

mutual

/-- What the builders write in the indented form, on a line that starts with `n` spaces. -/
def Dbg.pretty (n : Nat) : Dbg → Bytes
  | .atom s => s
  | .quoted v => debugBytes v
  | .field name d => Fuse.text name ++ Fuse.text ": " ++ d.pretty n
  | .record name ds => Fuse.text name ++ Fuse.text " {\n" ++ Dbg.prettyFields name (n + 4) ds ++ indent n ++ Fuse.text "}"
  | .tuple name ds =>
    if oneLineTuples.contains name then (Dbg.tuple name ds).text
    else Fuse.text name ++ Fuse.text "(\n" ++ Dbg.prettyItems (n + 4) ds ++ indent n ++ Fuse.text ")"
  | .list ds =>
    if ds.isEmpty then Fuse.text "[]" else Fuse.text "[\n" ++ Dbg.prettyItems (n + 4) ds ++ indent n ++ Fuse.text "]"
  | .set name ds =>
    if ds.isEmpty then Fuse.text name ++ Fuse.text " {}"
    else Fuse.text name ++ Fuse.text " {\n" ++ Dbg.prettyItems (n + 4) ds ++ indent n ++ Fuse.text "}"

/-- The entries, one per line. -/
def Dbg.prettyItems (n : Nat) : List Dbg → Bytes
  | [] => []
  | d :: ds => indent n ++ d.pretty n ++ Fuse.text ",\n" ++ Dbg.prettyItems n ds

/-- The fields of a structure, one per line. -/
def Dbg.prettyFields (rec : String) (n : Nat) : List Dbg → Bytes
  | [] => []
  | .field name d :: ds =>
    indent n ++ Fuse.text name ++ Fuse.text ": " ++
      (if oneLineFields.contains (rec, name) then d.text else d.pretty n) ++ Fuse.text ",\n" ++
      Dbg.prettyFields rec n ds
  | d :: ds => indent n ++ d.pretty n ++ Fuse.text ",\n" ++ Dbg.prettyFields rec n ds

end

end Fuse
