import Verif.Model.Draw
/-
What the library takes from the outside world, as parameters of the model: library functions whose results
the properties do not depend on (digests, deflate, trigonometry, font subsetting, the clock), the
order in which Go ranges over maps, and the user's call-back functions.
-/
namespace Verif.Model

/-- Lower-case hexadecimal digits, Go `%x` of a byte slice. `/repo/attachments.go:28-35`. -/
def hexDigit (n : Nat) : UInt8 := if n < 10 then UInt8.ofNat (48 + n) else UInt8.ofNat (87 + n)
/-- Go `fmt.Sprintf("%x", b)`. `/repo/attachments.go:28-35`. -/
def hexEnc (b : Bytes) : Bytes := b.flatMap fun c => [hexDigit (c.toNat / 16), hexDigit (c.toNat % 16)]

/-- External functions: library calls and data of `/repo` whose results the properties do not depend on; each field says which code it stands for, e.g. `/repo/util.go:99-106`. -/
structure Ext where
  T : Trig := {}
  /-- `md5.Sum` -/
  md5 : Bytes → Bytes := id
  /-- `sha1.Sum` -/
  sha1 : Bytes → Bytes := id
  /-- `sliceCompress`, `/repo/util.go:99-106` -/
  deflate : Bytes → Bytes := id
  /-- digest of `json.Marshal` of a font definition without file name, `/repo/def.go:719-724` -/
  fontHash : FontDef → Bytes := fun _ => []
  /-- digest of the gob encoding of an image, `/repo/def.go:184-187` -/
  imgHash : ImageInfo → Bytes := fun _ => []
  /-- `embeddedFontList`, `/repo/embedded.go:25-39`, decoded -/
  coreFont : Bytes → Option FontDef := fun _ => none
  /-- `loadFontFile`, `/repo/fpdf.go:4329-4341` -/
  fontFile : Bytes → Option Bytes := fun _ => none
  /-- `GenerateCutFont`, `/repo/utf8fontfile.go` -/
  cutFont : FontDef → List Nat → Bytes := fun _ _ => []
  /-- the CIDToGIDMap bytes, `/repo/fpdf.go:4161-4168` -/
  cidToGid : FontDef → List Nat → Bytes := fun _ _ => []
  /-- the constant `toUnicode` -/
  toUnicode : Bytes := []
  /-- creation and modification dates as formatted by `putinfo` -/
  creation : Bytes := []
  modified : Bytes := []
  /-- random owner password, `/repo/protect.go:95-98` -/
  rnd : Bytes := []
  /-- the order in which Go ranges over a map with the given keys, at the given place of the program -/
  ord : Nat → List Bytes → List Bytes := fun _ l => l
  ord_perm : ∀ s l, (ord s l).Perm l := by intros; exact List.Perm.refl _

/-- The user's call-backs: header (`SetHeaderFunc`), footer (`SetFooterFunc`, or `SetFooterFuncLpi` with the last-page
flag) and accept-page-break (`SetAcceptPageBreakFunc`; the default is `/repo/fpdf.go:190-192`). Each is an
arbitrary state transformer. They are given afresh to every call, so setting them is not an operation of the
model. SIMPLIFICATION: a call-back that itself replaces a call-back takes effect only in later calls. -/
structure Cb where
  header : Option (Fpdf → Fpdf) := none
  footer : Option (Bool → Fpdf → Fpdf) := none
  accept : Fpdf → Bool × Fpdf := fun f => (f.p.autoPageBreak, f)

end Verif.Model
