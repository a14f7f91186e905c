import Verif.Model.JsonText
/-! # Model: the bytes of the configuration file -/

namespace Post

/-- What the program sees of a configuration file with the given bytes (sim/src/lib.rs:39-42, `serde_json::from_reader`).
Simplified: serde_json works on the bytes and decodes (`str::from_utf8`) only what stands between quotation marks; since all
other characters of a JSON document are ASCII characters, a document is rejected unless the whole of it is UTF-8. -/
def File.ofBytes {F : Type} [Flt F] (b : ByteArray) : File F :=
  match b.utf8Decode? with
  | none => .notJson
  | some cs => .ofText cs.toList

end Post
