import Verif.Spec.Image
import Verif.Props.Templates
/-
Claim C46: images.
-/
namespace Verif.Props
open Verif Verif.Model Verif.Spec Verif.Proof

/-- The whole part of a size in pixels. -/
def pixels (x : Rat) : Int := if x < 0 then -(-x).floor else x.floor

/-- The picture that a decoded image describes, when it is object `n` and its mask or palette the next object. -/
def pictureOf (n : Nat) (im : ImageInfo) : Picture where
  width := pixels im.w
  height := pixels im.h
  space := im.cs
  palette := if im.cs = B "Indexed" then some ((im.pal.length / 3 : Nat) - 1, n + 1) else none
  bits := im.bpc
  filter := im.f
  parms := im.dp
  key := im.trns
  mask := im.smask.map fun _ => n + 1

/-- The soft mask of an image: one channel of eight bits, with the size and the filter of the image. -/
def maskPicture (im : ImageInfo) : Picture where
  width := pixels im.w
  height := pixels im.h
  space := B "DeviceGray"
  bits := 8
  filter := im.f
  parms := B "/Predictor 15 /Colors 1 /BitsPerComponent 8 /Columns " ++ signed (pixels im.w)

/-- Object `n` of the file is the image, the next one its mask or palette, as its dictionary says. -/
structure ImageIn (items : List (Nat × Body)) (decrypt : Nat → Bytes → Bytes) (inflate : Bytes → Bytes) (n : Nat) (im : ImageInfo) : Prop where
  image : PictureAt items decrypt n (pictureOf n im) im.data
  mask : ∀ sm, im.smask = some sm → sm ≠ [] → PictureAt items decrypt (n + 1) (maskPicture im) sm
  palette : im.cs = B "Indexed" → (∀ sm, im.smask = some sm → sm = []) → ∃ dict b, (n + 1, Body.stream dict b) ∈ items ∧ readStream inflate decrypt (n + 1) dict b = im.pal

theorem intDec_signed (z : Int) : intDec z = signed z := by
  unfold intDec signed
  rw [natDec_decimal]
  rfl

theorem imageDict_picture (n : Nat) (im : ImageInfo) : imageDict n im = (pictureOf n im).dict := by
  unfold imageDict Picture.dict pictureOf
  dsimp only
  rw [intDec_signed, intDec_signed, intDec_signed, natDec_decimal, natDec_decimal]
  have e : (im.trns.flatMap fun v => intDec v ++ B " " ++ intDec v ++ B " ") = im.trns.flatMap fun v => signed v ++ B " " ++ signed v ++ B " " := by
    congr 1; funext v; rw [intDec_signed]
  rw [e]
  have e2 : maskText (im.smask.map fun _ => n + 1) = if im.smask.isSome = true then B "/SMask " ++ decimal (n + 1) ++ B " 0 R\n" else [] := by
    cases im.smask <;> rfl
  have e3 : coloursText im.cs (if im.cs = B "Indexed" then some (((im.pal.length / 3 : Nat) : Int) - 1, n + 1) else none) =
      if im.cs = B "Indexed" then B "/ColorSpace [/Indexed /DeviceRGB " ++ signed (((im.pal.length / 3 : Nat) : Int) - 1) ++ B " " ++ decimal (n + 1) ++ B " 0 R]\n"
      else B "/ColorSpace /" ++ im.cs ++ B "\n" ++ (if im.cs = B "DeviceCMYK" then B "/Decode [1 0 1 0 1 0 1 0]\n" else []) := by
    by_cases hc : im.cs = B "Indexed"
    · rw [if_pos hc, if_pos hc]; rfl
    · rw [if_neg hc, if_neg hc]; rfl
  rw [e2, e3]
  rfl

theorem maskOf_picture {im m : ImageInfo} (n : Nat) (h : maskOf im = some m) : ∃ sm, im.smask = some sm ∧ sm ≠ [] ∧ m.data = sm ∧ pictureOf n m = maskPicture im := by
  unfold maskOf at h
  cases hs : im.smask with
  | none => rw [hs] at h; cases h
  | some sm =>
    rw [hs] at h
    dsimp only at h
    split at h
    · next hl =>
      refine ⟨sm, rfl, fun e => by (rw [e] at hl; cases hl), ?_, ?_⟩
      · rw [← Option.some.inj h]
      · rw [← Option.some.inj h]
        unfold pictureOf maskPicture
        dsimp only
        rw [if_neg (by decide)]
        have e : sprintf "/Predictor 15 /Colors 1 /BitsPerComponent 8 /Columns %d" [.d (Fpdf.truncRat im.w)] = B "/Predictor 15 /Colors 1 /BitsPerComponent 8 /Columns " ++ (intDec (Fpdf.truncRat im.w) ++ []) :=
          sprintfB_of_render _ _ _ rfl
        rw [e, List.append_nil, intDec_signed]
        rfl
    · cases h

theorem maskOf_none {im : ImageInfo} (h : maskOf im = none) (sm : Bytes) (hs : im.smask = some sm) : sm = [] := by
  unfold maskOf at h
  rw [hs] at h
  dsimp only at h
  split at h
  · cases h
  · next hl =>
    cases sm with
    | nil => rfl
    | cons a r => exact absurd (by simp) hl

theorem readStream_pal (E : Ext) (inflate : Bytes → Bytes) (hinf : ∀ b, inflate (E.deflate b) = b) (decrypt : Nat → Bytes → Bytes) (n : Nat) (c : Bool) (pal d : Bytes)
    (h : decrypt n d = contentData E c pal) : readStream inflate decrypt n (contentDict E c pal) d = pal := by
  unfold contentDict
  cases c with
  | true =>
    rw [if_pos rfl]
    show inflate (decrypt n d) = pal
    rw [h]
    exact hinf pal
  | false =>
    rw [if_neg (by simp)]
    exact h

/-- An image in the file. -/
theorem block_image (E : Ext) (inflate : Bytes → Bytes) (hinf : ∀ b, inflate (E.deflate b) = b) {f g s : Fpdf} (F : Final E f s) (hg : Final E f g)
    {items : List (Nat × Body)} {c : Bool} {n : Nat} {im : ImageInfo} {o : List Body} (hb : ImgBlock E c s.m.protect n im o) (hmem : ∀ (q : Nat) b, o[q]? = some b → (n + q, b) ∈ items) :
    ImageIn items (decryptOf E g) inflate n im := by
  obtain ⟨b, ms, ps, rfl, ⟨len, b', rfl, h1⟩, h2, h3⟩ := hb
  refine ⟨⟨len, b', ?_, final_read F hg h1⟩, fun sm hs hne => ?_, fun hc hno => ?_⟩
  · rw [← imageDict_picture]
    exact hmem 0 _ rfl
  · rcases h2 with ⟨hm, _⟩ | ⟨m, d, hm, rfl, len2, b2, rfl, h4⟩
    · exact absurd (maskOf_none hm sm hs) hne
    · obtain ⟨sm', e1, e2, e3, e4⟩ := maskOf_picture (n + 1) hm
      obtain rfl : sm = sm' := by rw [hs] at e1; exact Option.some.inj e1
      refine ⟨len2, b2, ?_, ?_⟩
      · rw [← e4, ← imageDict_picture]
        exact hmem 1 _ rfl
      · rw [← e3]; exact final_read F hg h4
  · rcases h2 with ⟨hm, rfl⟩ | ⟨m, d, hm, _⟩
    · rcases h3 with ⟨h, _⟩ | ⟨_, d, rfl, h4⟩
      · exact absurd hc h
      · exact ⟨_, d, hmem 1 _ rfl, readStream_pal E inflate hinf _ _ c _ _ (final_read F hg h4)⟩
    · obtain ⟨sm, e1, e2, _⟩ := maskOf_picture (n + 1) hm
      exact absurd (hno sm e1) e2

/-- The document has registered this image under some name. -/
def Registered (f : Fpdf) (im : ImageInfo) : Prop := ∃ k p, lookup k f.r.images = some p ∧ f.r.imgHeap[p]? = some im

/-- The objects that an image takes. -/
def objectsOf (im : ImageInfo) : Nat := 1 + (match im.smask with | some sm => if sm = [] then 0 else 1 | none => 0) + if im.cs = B "Indexed" then 1 else 0

theorem block_len {E : Ext} {c : Bool} {pr : Protect} {n : Nat} {im : ImageInfo} {o : List Body} (h : ImgBlock E c pr n im o) : o.length = objectsOf im := by
  obtain ⟨b, ms, ps, rfl, _, h2, h3⟩ := h
  unfold objectsOf
  have e1 : ms.length = match im.smask with | some sm => if sm = [] then 0 else 1 | none => 0 := by
    rcases h2 with ⟨hm, rfl⟩ | ⟨m, d, hm, rfl, _⟩
    · cases hs : im.smask with
      | none => rfl
      | some sm => rw [maskOf_none hm sm hs]; rfl
    · obtain ⟨sm, e1, e2, _⟩ := maskOf_picture 0 hm
      rw [e1]
      dsimp only
      rw [if_neg e2]
      rfl
  have e2 : ps.length = if im.cs = B "Indexed" then 1 else 0 := by
    rcases h3 with ⟨hc, rfl⟩ | ⟨hc, d, rfl, _⟩
    · rw [if_neg hc]; rfl
    · rw [if_pos hc]; rfl
  rw [List.length_cons, List.length_append, e1, e2]
  omega

theorem blocks_len {E : Ext} {c : Bool} {pr : Protect} : ∀ (l : List (ImageInfo × List Body)) (n : Nat), Blocks E c pr n l → (l.flatMap (·.2)).length = (l.map fun x => objectsOf x.1).sum
  | [], _, _ => rfl
  | a :: r, n, h => by
    rw [List.flatMap_cons, List.length_append, List.map_cons, List.sum_cons, blocks_len r _ h.2, block_len h.1]

/-- **C46.** Writing the images, in any state in which the document is being written: the images written have different IDs, they are registered images, every registered image has the ID of one of
them, and the number of objects written is exactly what these images take – nothing is written for a second image with the same ID. -/
theorem C46_once (E : Ext) (f : Fpdf) (hs : f.state = 1) (hr : f.m.protect.rc4n ≤ f.n) :
    ∃ ws : List ImageInfo, (ws.map (·.i)).Nodup ∧ (∀ w ∈ ws, Registered f w) ∧ (∀ im, Registered f im → ∃ w ∈ ws, w.i = im.i) ∧ (f.putimages E).n = f.n + (ws.map objectsOf).sum := by
  obtain ⟨ws, h, _⟩ := images_run E f hs hr
  refine ⟨ws.map (·.1), ?_, ?_, ?_, ?_⟩
  · rw [List.map_map]; exact h.nodup
  · intro w hw
    obtain ⟨x, hx, rfl⟩ := List.mem_map.1 hw
    obtain ⟨k, _, p, a, b⟩ := h.from_ x hx
    exact ⟨k, p, a, b⟩
  · rintro im ⟨k, p, h1, h2⟩
    obtain ⟨n, _, q2⟩ := h.img k (mem_visit E _ _ _ (lookup_keys h1)) p im h1 h2
    rcases q2 with q2 | ⟨_, q2⟩
    · cases q2
    · obtain ⟨im', o, _, r1, r2, _⟩ := Blocks.find ws _ h.blocks _ _ q2
      exact ⟨im', List.mem_map.2 ⟨_, r1, rfl⟩, r2⟩
  · rw [h.w.n, blocks_len ws _ h.blocks, List.map_map]
    rfl

set_option linter.constructorNameAsVariable false in
/-- **C46.** In every document built from `New` by a program that does not close it, written without an error, there is a list of images and object numbers such that no ID and no number occurs twice;
each is a registered image and the object with its number is this image – its dictionary, its data, and its mask or palette in the next object; for every registered image the resources of the pages give
its name the number of the image with its ID. If templates are told apart by their pointers, every template needed is a form of the file whose resources give the names of its images these numbers, for all
its images that are registered in the document. -/
theorem C46_images (E : Ext) (inflate : Bytes → Bytes) (hinf : ∀ b, inflate (E.deflate b) = b) (o u s : Bytes) (sz : Size) (f : Fpdf) (cb : Cb) (wf : Bool)
    (hf : Reach E noClose (Fpdf.new o u s sz) f) (hcb : CbReach E noClose cb) (hok : errOf E cb f wf = none) (hsize : (fileOf E cb f wf).length < 10 ^ 10) :
    ∃ before version items root info dict, ∃ ws : List (ImageInfo × Nat), IsPdf (fileOf E cb f wf) before version items root info ∧ (2, Body.plain (B "<<\n" ++ dict ++ B ">>\n")) ∈ items ∧
      (ws.map (·.1.i)).Nodup ∧ (ws.map (·.2)).Nodup ∧
      (∀ w ∈ ws, Registered (drawn E cb f) w.1 ∧ ImageIn items (decryptOf E (docOf E cb f wf)) inflate w.2 w.1) ∧
      (∀ im, Registered (drawn E cb f) im → ∃ w ∈ ws, w.1.i = im.i ∧ Names dict (B "XObject") (B "I" ++ im.i) w.2) ∧
      (SameTemplates (docOf E cb f wf) → ∀ t, Needs (docOf E cb f wf).r.templates t → ∃ m d, FormAt items (readIn E inflate (docOf E cb f wf)) m t d ∧
        ∀ k (p : Nat) im, lookup k t.images = some p → (∃ k', lookup k' (drawn E cb f).r.images = some p) → (drawn E cb f).r.imgHeap[p]? = some im →
          ∃ w ∈ ws, w.1.i = im.i ∧ Names d (B "XObject") (B "I" ++ im.i) w.2) := by
  obtain ⟨last, v, A, P, M, T, d, items, hp⟩ := printed_any hf hcb hok
  have hpdf := hp.written.pdf hsize
  have hn : last.n = 2 := hp.op.n.trans ((new_fresh o u s sz).next (reach_open hf)).n
  have ht := final_templates hp.fin
  have hr := hp.written.root hp.state
  have hto : last.r.templateObjects = [] := last_data (G := noClose) noClose_open tobj_data (fun cb f op ho => tobj_own E cb f op (helper_stays ho)) (fun f cb op _ hs => tobj_own E cb f op hs)
    hf hcb hp.eq hp.page1 (new_get (fun f => f.r.templateObjects) (fun _ => rfl) o u s sz)
  obtain ⟨_, _, _, _, _, _, _, _, hF, _⟩ := hp.written.stages hp.state hn
  have hdr : drawn E cb f = last := hp.eq.symm
  rw [hdr]
  obtain ⟨k1, ws, a1, a2, a3, a4, a5⟩ := hp.written.res.ima
  have key : ∀ i m, (i, m) ∈ imgNums ((sRoot E last).n + k1) ws → ∃ im, (im ∈ ws.map (·.1)) ∧ im.i = i ∧ ImageIn items (decryptOf E (docOf E cb f wf)) inflate m im := by
    intro i m hm
    obtain ⟨im, o, j, b1, b2, b3, b4, b5⟩ := Blocks.find ws _ a1 _ _ hm
    refine ⟨im, List.mem_map.2 ⟨_, b1, rfl⟩, b2, block_image E inflate hinf hF hp.fin b4 (fun q b hq => ?_)⟩
    have := hp.written.mem_placed hp.state hn (a4 _ b (b5 q b hq))
    rw [show (sRoot E last).n + 1 + (k1 + (j + q)) = m + q by omega] at this
    exact this
  -- the image with an ID
  have pick : ∀ x ∈ imgNums ((sRoot E last).n + k1) ws, ∃ im : ImageInfo, im ∈ ws.map (·.1) ∧ im.i = x.1 ∧ ImageIn items (decryptOf E (docOf E cb f wf)) inflate x.2 im := fun x hx => key x.1 x.2 hx
  let ws' : List (ImageInfo × Nat) := (imgNums ((sRoot E last).n + k1) ws).attach.map fun x => ((pick x.1 x.2).choose, x.1.2)
  have hid : ws'.map (·.1.i) = ws.map (·.1.i) := by
    show ((imgNums _ ws).attach.map _).map _ = _
    rw [List.map_map, ← imgNums_keys ((sRoot E last).n + k1) ws]
    conv => rhs; rw [← List.attach_map_subtype_val (imgNums ((sRoot E last).n + k1) ws), List.map_map]
    refine List.map_congr_left fun x _ => ?_
    exact (pick x.1 x.2).choose_spec.2.1
  have hnum : ws'.map (·.2) = (imgNums ((sRoot E last).n + k1) ws).map (·.2) := by
    show ((imgNums _ ws).attach.map _).map _ = _
    rw [List.map_map]
    conv => rhs; rw [← List.attach_map_subtype_val (imgNums ((sRoot E last).n + k1) ws), List.map_map]
    rfl
  have hget : ∀ i m, (i, m) ∈ imgNums ((sRoot E last).n + k1) ws → ∃ w ∈ ws', w.1.i = i ∧ w.2 = m := by
    intro i m hm
    exact ⟨_, List.mem_map.2 ⟨⟨_, hm⟩, List.mem_attach _ _, rfl⟩, (pick _ hm).choose_spec.2.1, rfl⟩
  have heap : ∀ k (p : Nat) im, lookup k last.r.images = some p → last.r.imgHeap[p]? = some im → ∃ n, (sRes E last).r.imgHeap[p]? = some { im with n := n } ∧ ∃ w ∈ ws', w.1.i = im.i ∧ w.2 = n := by
    intro k p im h1 h2
    obtain ⟨n, q1, q2⟩ := a5 k p im (by rw [hr.img]; exact h1) (by rw [hr.heap]; exact h2)
    exact ⟨n, q1, hget _ _ q2⟩
  refine ⟨_, v, items, _, _, d, ws', hpdf, hp.written.mem_dict, hid ▸ a2, by rw [hnum]; exact imgNums_nodup _ _ a1, fun w hw => ?_, ?_, fun hptr t htn => ?_⟩
  · obtain ⟨x, _, rfl⟩ := List.mem_map.1 hw
    obtain ⟨h1, _, h3⟩ := (pick x.1 x.2).choose_spec
    obtain ⟨y, y1, y2⟩ := List.mem_map.1 h1
    obtain ⟨k, p, z1, z2⟩ := a3 y y1
    refine ⟨⟨k, p, by rw [← hr.img]; exact z1, ?_⟩, h3⟩
    rw [← hr.heap, z2, y2]
  · rintro im ⟨k, p, h1, h2⟩
    obtain ⟨n, q1, w, w1, w2, w3⟩ := heap k p im h1 h2
    obtain ⟨fs, is, ts, ss, _, k2, _, _, rfl⟩ := hp.written.dictText hp.state hn
    have hi : (sRes E last).r.images = last.r.images := (wfix_reg hp.written.mid.fix).1.trans hr.img
    refine ⟨w, w1, w2, _, dict_xobj, List.mem_append_left _ (List.mem_filterMap.2 ⟨k, (k2 k).2 (by rw [hi]; exact lookup_keys h1), ?_⟩)⟩
    unfold imgEnt
    rw [hi, h1, w3]
    show ((sRes E last).r.imgHeap[p]?).map _ = _
    rw [q1]
    rfl
  · obtain ⟨k0, g1, g2⟩ := hp.written.res.tpl
    have hst : (sRoot E last).r.templates = (docOf E cb f wf).r.templates := by rw [hr.tem, ht]
    have hT0 : (sRoot E last).r.templateObjects = [] := hr.tob.trans hto
    rw [hT0] at g2
    obtain ⟨c1, c2, c3⟩ := C32_order (visit E (sRoot E last).m.catalogSort 9 (keys (sRoot E last).r.templates) bytesLe) (sRoot E last).r.templates (fun k => visit_iff E _ _ _ _ k)
      (by rw [hst]; exact samePtr hptr)
    change ∀ t, t ∈ sorted E (sRoot E last) ↔ _ at c1
    change ∀ pre t post, sorted E (sRoot E last) = pre ++ t :: post → _ at c3
    rw [hst] at c1
    generalize sorted E (sRoot E last) = ts at *
    obtain ⟨i, hi⟩ := List.getElem?_of_mem ((c1 t).2 htn)
    obtain ⟨b, b1, b2⟩ := g2 i t hi
    have hmem := hp.written.mem_placed hp.state hn b1
    rw [show (sRoot E last).n + 1 + (k0 + i) = (sRoot E last).n + k0 + 1 + i by omega] at hmem
    obtain ⟨dd, d1, _, _, d4⟩ := form_block E inflate hinf hF hp.fin hp.written.mid.meta.1 hmem b2 hi (fun x hx => c3 _ t _ (take_pre hi) x hx)
    refine ⟨_, dd, d1, fun k p im h1 h2 h3 => ?_⟩
    obtain ⟨k', h2⟩ := h2
    obtain ⟨n, q1, w, w1, w2, w3⟩ := heap k' p im h2 h3
    have := d4 k p _ h1 q1
    exact ⟨w, w1, w2, w3 ▸ this⟩

/-! ### Examples -/

/-- Two images: one with a palette, one with a soft mask. -/
def flag : ImageInfo := { w := 2, h := 1, cs := B "Indexed", pal := [1, 2, 3, 4, 5, 6], bpc := 8, data := [7, 8] }
@[inherit_doc flag] def glass : ImageInfo := { w := 3, h := 2, cs := B "DeviceRGB", bpc := 8, data := [9], smask := some [1, 2] }

/-- IDs that tell images apart. -/
def byData : Ext := { oneFont with imgHash := fun im => im.data ++ im.pal }

/-- A template that shows `flag`, the image of the document at place 2. -/
def showsFlag : Tmpl := .mk 1 (0, 0) { wd := 10, ht := 10 } (B "q Q\n") [(B "flag", 2)] []

/-- A document that registers `flag` under two names, and `glass`. -/
def album : Fpdf := after (Fpdf.new [] [] [] {})
  [.addPage, .registerImage (B "a") (some flag), .registerImage (B "b") (some flag), .registerImage (B "c") (some glass), .image (B "b") none 1 1 5 5 false false 0 []] byData

theorem album_reach : Reach byData noClose (Fpdf.new [] [] [] {}) album :=
  reach_after (G := noClose) (ok := pfB) (fun f op h => ⟨(pfB_ok f op h).1, (pfB_ok f op h).2.1⟩) _ _ _ (Reach.refl _) (by decide +kernel)

/-- The hypotheses of `C46_images` hold of it. The document has three images and writes two of them: `flag` is object 5 and its palette object 6, `glass` object 7 and its mask object 8. -/
example : CbReach byData noClose {} ∧ errOf byData {} album false = none ∧ (fileOf byData {} album false).length < 10 ^ 10 ∧ album.r.images.length = 3 := by
  refine ⟨⟨by simp, by simp, fun s => Reach.refl s⟩, ?_, ?_, ?_⟩ <;> decide +kernel
example : contains (B "/I0708010203040506 5 0 R\n") (fileOf byData {} album false) = true ∧ contains (B "/SMask 8 0 R") (fileOf byData {} album false) = true := by
  refine ⟨?_, ?_⟩ <;> decide +kernel

/-- A document with an image that a template it uses has too, as an image of its own. -/
def clash : Fpdf := after (Fpdf.new [] [] [] {})
  [.addPage, .registerImage (B "a") (some flag), .registerImage (B "c") (some glass), .createTemplate [flag], .useTemplate (some showsFlag) (0, 0) { wd := 10, ht := 10 }] byData

theorem clash_reach : Reach byData noClose (Fpdf.new [] [] [] {}) clash :=
  reach_after (G := noClose) (ok := pfB) (fun f op h => ⟨(pfB_ok f op h).1, (pfB_ok f op h).2.1⟩) _ _ _ (Reach.refl _) (by decide +kernel)

/-- **C46**, the case left out: the image of a template is not registered if the document already has an image with its content – here the template was made with a `flag` of its own. The resources of the
template then name object 0. -/
theorem C46_template_false : ∃ f : Fpdf, Reach byData noClose (Fpdf.new [] [] [] {}) f ∧ errOf byData {} f false = none ∧ contains (B "/I0708010203040506 0 0 R\n") (fileOf byData {} f false) = true := by
  refine ⟨clash, clash_reach, ?_, ?_⟩ <;> decide +kernel

end Verif.Props
