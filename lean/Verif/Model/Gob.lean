import Verif.Model.Writer
/-
Templates as values of their own, and their serialisation (`/repo/template_impl.go`, `/repo/def.go:184-217`).

SIMPLIFICATION: `encoding/gob` itself is not modelled: encoding a value and decoding it is taken to give the value back, so the encoded form of a template is modelled as the tuple of values that
`GobEncode` gives to the encoder (`Wire`), and encoding errors do not occur. That a slice of `Template` values is decoded as a slice of `*FpdfTpl` is part of this assumption. Pointers are not modelled here:
a template reached in two ways is two equal values. The field `scale` of an image is left out; it is treated like the other numbers.
-/
namespace Verif.Model

/-- `FpdfTpl`, `/repo/template_impl.go:56-63`. Page 0 of `bytes` is the empty one. -/
inductive Tpl
  | mk (corner : Rat × Rat) (size : Size) (bytes : List Bytes) (page : Nat) (images : List (Bytes × ImageInfo)) (deps : List Tpl)

namespace Tpl
/-- `Size()`, `/repo/template_impl.go:71-73`. -/
def corner : Tpl → Rat × Rat | mk c _ _ _ _ _ => c
@[inherit_doc corner] def size : Tpl → Size | mk _ s _ _ _ _ => s
/-- The pages, `/repo/template_impl.go:59`. -/
def bytes : Tpl → List Bytes | mk _ _ b _ _ _ => b
/-- The selected page, `/repo/template_impl.go:62`. -/
def page : Tpl → Nat | mk _ _ _ p _ _ => p
/-- `Images()`, `/repo/template_impl.go:116-118`. -/
def images : Tpl → List (Bytes × ImageInfo) | mk _ _ _ _ i _ => i
/-- `Templates()`, `/repo/template_impl.go:121-123`. -/
def deps : Tpl → List Tpl | mk _ _ _ _ _ d => d

/-- `ID()`, `/repo/template_impl.go:66-68`. -/
def id (E : Ext) (t : Tpl) : Bytes := hexEnc (E.sha1 (t.bytes.getD t.page []))

/-- `NumPages()`, `/repo/template_impl.go:127-131`. -/
def numPages (t : Tpl) : Nat := t.bytes.length - 1

/-- `FromPage(page)`, `/repo/template_impl.go:81-100`; `none` stands for an error. -/
def fromPage (t : Tpl) (page : Nat) : Option Tpl :=
  if page = 0 then none
  else if page > t.numPages then none
  else if t.page = page then some t
  else some (.mk t.corner t.size t.bytes page t.images t.deps)

/-- `FromPages()`, `/repo/template_impl.go:103-113`. -/
def fromPages (t : Tpl) : List (Option Tpl) := (List.range t.numPages).map fun x => t.fromPage (x + 1)
end Tpl

/-- The name under which a document keeps image `k` of the template with the given ID, `/repo/template.go:99`, `/repo/template_impl.go:159`. -/
def nested (id k : Bytes) : Bytes := B "t" ++ id ++ B "-" ++ k

/-- `childrenImages`, `/repo/template_impl.go:152-164`, of a template that uses `deps`. -/
def childrenImages (E : Ext) (deps : List Tpl) : List (Bytes × ImageInfo) :=
  deps.foldl (fun m d => d.images.foldl (fun m x => Model.insert (nested (d.id E) x.1) x.2 m) m) []

/-- `childrensTemplates`, `/repo/template_impl.go:168-177`. -/
def childrensTemplates (deps : List Tpl) : List Tpl := deps.flatMap Tpl.deps

/-- What `ImageInfoType.GobDecode` makes of an encoded image: the same fields with the checksum computed anew, `/repo/def.go:190-217`. -/
def reread (E : Ext) (im : ImageInfo) : ImageInfo := { im with i := hexEnc (E.imgHash { im with i := [] }) }

/-- The values that `GobEncode` hands to the encoder, in this order, `/repo/template_impl.go:182-226`. -/
inductive Wire
  | mk (templates : List Wire) (images : List (Bytes × ImageInfo)) (corner : Rat × Rat) (size : Size) (bytes : List Bytes) (page : Nat)

mutual
/-- `GobEncode`, `/repo/template_impl.go:182-226`. -/
def gobEncode (E : Ext) : Tpl → Wire
  | .mk c s b p im ds =>
    .mk (gobEncodeAll E ((childrensTemplates ds).map (Tpl.id E)) ds) (im.filter fun x => decide (x.1 ∉ keys (childrenImages E ds))) c s b p
/-- The templates that no other one brings along, `/repo/template_impl.go:189-199`. -/
def gobEncodeAll (E : Ext) (brought : List Bytes) : List Tpl → List Wire
  | [] => []
  | d :: r => if d.id E ∈ brought then gobEncodeAll E brought r else gobEncode E d :: gobEncodeAll E brought r
end

mutual
/-- `GobDecode`, `/repo/template_impl.go:230-272`. -/
def gobDecode (E : Ext) : Wire → Tpl
  | .mk ts im c s b p =>
    let kids := gobDecodeAll E ts
    .mk c s b p ((childrenImages E kids).foldl (fun m x => Model.insert x.1 x.2 m) (im.map fun x => (x.1, reread E x.2))) (childrensTemplates kids ++ kids)
/-- The list of templates, `/repo/template_impl.go:234-240`. -/
def gobDecodeAll (E : Ext) : List Wire → List Tpl
  | [] => []
  | w :: r => gobDecode E w :: gobDecodeAll E r
end

/-- The images and templates a template under construction has used, `/repo/def.go:536`, `541`. -/
structure Bench where
  images : List (Bytes × ImageInfo) := []
  templates : List (Bytes × Tpl) := []

/-- `RegisterImage…`: an image under a new name; a name already there keeps its image, `/repo/fpdf.go:3163-3203`. -/
def Bench.register (E : Ext) (b : Bench) (k : Bytes) (im : ImageInfo) : Bench :=
  match lookup k b.images with
  | some _ => b
  | none => { b with images := Model.insert k (reread E { im with n := 0 }) b.images }

/-- `UseTemplate`, `UseTemplateScaled`: what it notes, `/repo/template.go:84-101`. -/
def Bench.use (E : Ext) (b : Bench) (t : Tpl) : Bench :=
  let existing := b.images.map (·.2.i)
  { images := t.images.foldl (fun m x => if x.2.i ∈ existing then m else Model.insert (nested (t.id E) x.1) x.2 m) b.images
    templates := t.deps.foldl (fun m d => Model.insert (d.id E) d m) (Model.insert (t.id E) t b.templates) }

/-- The end of `newTpl`, `/repo/template_impl.go:39-53`: the templates come in the order of their keys. -/
def Bench.finish (b : Bench) (corner : Rat × Rat) (size : Size) (bytes : List Bytes) (page : Nat) : Tpl :=
  .mk corner size bytes page b.images ((sortKeys bytesLe (keys b.templates)).filterMap fun k => lookup k b.templates)

end Verif.Model
