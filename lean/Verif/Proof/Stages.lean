import Verif.Proof.Assemble
/-
The stages of `enddoc` and the layout of the file they produce.
-/
namespace Verif.Proof
open Verif Verif.Model Verif.Spec

theorem none_of_latch {f g : Fpdf} (h : f.err ≠ none → g.err ≠ none) (hg : g.err = none) : f.err = none := by
  cases hc : f.err with
  | none => rfl
  | some e => exact absurd hg (h (by simp [hc]))

/-! ### Header -/

theorem putheader_spec (f : Fpdf) (hs : f.state = 1) : ∃ v, f.putheader = { f with buffer := f.buffer ++ (B "%PDF-1." ++ natDec v ++ [10]), m.pdfVersion := v } := by
  unfold Fpdf.putheader
  dsimp only
  have key : ∀ v, ({ f with m.pdfVersion := v } : Fpdf).out (B "%PDF-1." ++ natDec v) = { f with buffer := f.buffer ++ (B "%PDF-1." ++ natDec v ++ [10]), m.pdfVersion := v } := by
    intro v
    unfold Fpdf.out
    rw [if_neg (by show f.state ≠ 2; omega)]
    simp only [List.append_assoc]
  split
  · split
    · exact ⟨_, key 4⟩
    · exact ⟨_, key 5⟩
  · split
    · exact ⟨_, key 4⟩
    · exact ⟨_, key f.m.pdfVersion⟩

/-! ### Aliases -/

/-- Pages with the aliases replaced. -/
def aliased (E : Ext) (f : Fpdf) : Fpdf :=
  (if f.m.aliasNbPagesStr ≠ [] then { f with m.aliasMap := Model.insert f.m.aliasNbPagesStr (sprintf "%d" [.d f.page]) f.m.aliasMap } else f).replaceAliases E

/-- Only the pages (and the panic flag) change. -/
def PgOnly (f g : Fpdf) : Prop := ∃ ps b, g = { f with pages := ps, panicked := b } ∧ ps.length = f.pages.length

theorem PgOnly.refl (f : Fpdf) : PgOnly f f := ⟨f.pages, f.panicked, rfl, rfl⟩
theorem PgOnly.trans {f g h : Fpdf} (h1 : PgOnly f g) (h2 : PgOnly g h) : PgOnly f h := by
  obtain ⟨p, b, rfl, hl⟩ := h1
  obtain ⟨p2, b2, rfl, hl2⟩ := h2
  exact ⟨p2, b2, rfl, hl2.trans hl⟩
theorem PgOnly.foldl {α} (F : Fpdf → α → Fpdf) (h : ∀ f a, PgOnly f (F f a)) (l : List α) (f : Fpdf) : PgOnly f (l.foldl F f) := by
  induction l generalizing f with
  | nil => exact PgOnly.refl f
  | cons a l ih => exact (h f a).trans (ih _)

theorem replaceAliases_pg (E : Ext) (f : Fpdf) : PgOnly f (f.replaceAliases E) := by
  unfold Fpdf.replaceAliases
  dsimp only
  have key : ∀ (m : Bool) (f : Fpdf) (k : Bytes), PgOnly f (match lookup k f.m.aliasMap with
    | none => f
    | some rep => { (if m = true then (f.noteU16 k).noteU16 rep else f) with
        pages := Fpdf.replaceOnPages (if m = true then (f.noteU16 k).noteU16 rep else f).page (if m = true then (u16 k false, u16 rep false) else (k, rep)).1
          (if m = true then (u16 k false, u16 rep false) else (k, rep)).2 (if m = true then (f.noteU16 k).noteU16 rep else f).pages }) := by
    intro m f k
    split
    · exact PgOnly.refl f
    · cases m
      · exact ⟨_, _, rfl, by simp [Fpdf.replaceOnPages]⟩
      · exact ⟨_, _, rfl, by simp [Fpdf.replaceOnPages, Fpdf.noteU16]⟩
  exact (PgOnly.foldl _ (key false) _ _).trans (PgOnly.foldl _ (key true) _ _)

theorem aliased_spec (E : Ext) (f : Fpdf) : ∃ ps b am, aliased E f = { f with pages := ps, panicked := b, m.aliasMap := am } ∧ ps.length = f.pages.length := by
  unfold aliased
  split
  · obtain ⟨p, b, h, hl⟩ := replaceAliases_pg E { f with m.aliasMap := Model.insert f.m.aliasNbPagesStr (sprintf "%d" [.d f.page]) f.m.aliasMap }
    exact ⟨p, b, _, h, hl⟩
  · obtain ⟨p, b, h, hl⟩ := replaceAliases_pg E f
    exact ⟨p, b, f.m.aliasMap, h, hl⟩

/-! ### Stages -/

/-- After the attachments. -/
def sAtt (E : Ext) (f : Fpdf) : Fpdf := (f.putheader.putAttachments E).putAnnotationsAttachments E
/-- With the aliases replaced. -/
def sAli (E : Ext) (f : Fpdf) : Fpdf := aliased E (sAtt E f)
/-- The default page height and width in points. -/
def defDim (f : Fpdf) : Rat × Rat := ((Fpdf.orient f.p.defOrientation f.p.defPageSize).wd * f.k, (Fpdf.orient f.p.defOrientation f.p.defPageSize).ht * f.k)
/-- After the pages, with the object numbers of the pages. -/
def sLoop (E : Ext) (f : Fpdf) : Fpdf × List Nat := Fpdf.putPagesLoop E (defDim (sAli E f)).2 (sAtt E f).page 1 (sAli E f) []
/-- After the page tree. -/
def sRoot (E : Ext) (f : Fpdf) : Fpdf := (sLoop E f).1.putPagesRoot (sAtt E f).page (sLoop E f).2 (defDim (sAli E f)).1 (defDim (sAli E f)).2
/-- After the fonts. -/
def sFonts (E : Ext) (f : Fpdf) : Fpdf := (((((sRoot E f).layerPutLayers E).putBlendModes).putGradients).putSpotColors E).putfonts E
/-- After the templates. -/
def sRes (E : Ext) (f : Fpdf) : Fpdf := ((sFonts E f).putimages E).putTemplates E
/-- After the resource dictionary. -/
def sDict (E : Ext) (f : Fpdf) : Fpdf := (sRes E f).putResourceObj E
/-- After the catalog. -/
def sEnd (E : Ext) (f : Fpdf) : Fpdf := ((((((sDict E f).putjavascript E).putEncrypt).putbookmarks E).putxmp E).putinfo E).putcatalog

theorem putpages_eq' (E : Ext) (f : Fpdf) : f.putpages E = (Fpdf.putPagesLoop E (defDim (aliased E f)).2 f.page 1 (aliased E f) []).1.putPagesRoot f.page
    (Fpdf.putPagesLoop E (defDim (aliased E f)).2 f.page 1 (aliased E f) []).2 (defDim (aliased E f)).1 (defDim (aliased E f)).2 := by
  unfold Fpdf.putpages
  dsimp only
  change _ = Fpdf.putPagesRoot (Fpdf.putPagesLoop E (defDim (aliased E f)).2 f.page 1 (aliased E f) []).1 _ _ _ _
  have : (if f.m.aliasNbPagesStr ≠ [] then { f with m.aliasMap := Model.insert f.m.aliasNbPagesStr (sprintf "%d" [.d f.page]) f.m.aliasMap } else f).replaceAliases E = aliased E f := rfl
  rw [this]
  generalize aliased E f = a
  unfold defDim
  dsimp only

theorem putpages_eq (E : Ext) (f : Fpdf) : (sAtt E f).putpages E = sRoot E f := by
  unfold sRoot sLoop sAli
  exact putpages_eq' E _

theorem putPagesLoop_writes (E : Ext) (hPt : Rat) (cnt : Nat) : ∀ (n : Nat) (f : Fpdf) (k : List Nat), Writes f (Fpdf.putPagesLoop E hPt cnt n f k).1 := by
  induction cnt with
  | zero => intro n f k; exact Writes.refl f
  | succ c ih =>
    intro n f k
    unfold Fpdf.putPagesLoop
    exact ((putPageDict_writes E hPt f n).trans (putContent_writes E _ _)).trans (ih _ _ _)

theorem sRes_writes (E : Ext) (f : Fpdf) : Writes (sRoot E f) (sRes E f) := by
  unfold sRes sFonts
  exact ((((((layerPutLayers_writes E _).trans (putBlendModes_writes _)).trans (putGradients_writes _)).trans (putSpotColors_writes E _)).trans
    (putfonts_writes E _)).trans (putimages_writes E _)).trans (putTemplates_writes E _)

/-- Stages between the page tree and the resource dictionary. -/
def sLay (E : Ext) (f : Fpdf) : Fpdf := (sRoot E f).layerPutLayers E
@[inherit_doc sLay] def sBle (E : Ext) (f : Fpdf) : Fpdf := (sLay E f).putBlendModes
@[inherit_doc sLay] def sGra (E : Ext) (f : Fpdf) : Fpdf := (sBle E f).putGradients
@[inherit_doc sLay] def sSpo (E : Ext) (f : Fpdf) : Fpdf := (sGra E f).putSpotColors E
@[inherit_doc sLay] def sImg (E : Ext) (f : Fpdf) : Fpdf := (sFonts E f).putimages E
/-- Stages after the resource dictionary. -/
def sJs (E : Ext) (f : Fpdf) : Fpdf := (sDict E f).putjavascript E
@[inherit_doc sJs] def sEnc (E : Ext) (f : Fpdf) : Fpdf := (sJs E f).putEncrypt
@[inherit_doc sJs] def sBk (E : Ext) (f : Fpdf) : Fpdf := (sEnc E f).putbookmarks E
@[inherit_doc sJs] def sXmp (E : Ext) (f : Fpdf) : Fpdf := (sBk E f).putxmp E
@[inherit_doc sJs] def sInf (E : Ext) (f : Fpdf) : Fpdf := (sXmp E f).putinfo E

theorem latch_none {f g : Fpdf} (h : Writes f g) (hg : g.err = none) : f.err = none := none_of_latch h.latch hg

theorem sEnd_writes (E : Ext) (f : Fpdf) : Writes (sDict E f) (sEnd E f) := by
  unfold sEnd
  exact (((((putjavascript_writes E _).trans (putEncrypt_writes _)).trans (putbookmarks_writes E _)).trans (putxmp_writes E _)).trans
    (putinfo_writes E _)).trans (putcatalog_writes _)

theorem sAtt_writes (E : Ext) (f : Fpdf) : Writes f.putheader (sAtt E f) :=
  (putAttachments_writes E _).trans (putAnnotationsAttachments_writes E _)

/-! ### The two reserved objects -/

theorem outs_chain_err {f g : Fpdf} (h : Pl f g) : g.err = f.err := h.err

/-- Contents of the page tree root. -/
def rootBody (nb : Nat) (kids : List Nat) (wPt hPt : Rat) : Body :=
  .plain (B "<</Type /Pages\n/Kids [" ++ kids.flatMap (fun k => natDec k ++ B " 0 R ") ++ B "]\n/Count " ++ natDec nb ++ B "\n"
    ++ sprintf "/MediaBox [0 0 %.2f %.2f]" [.f wPt, .f hPt] ++ B "\n>>\n")

theorem putPagesRoot_out (f : Fpdf) (hs : f.state = 1) (nb : Nat) (kids : List Nat) (wPt hPt : Rat) :
    Out (f.setOffset 1) (f.putPagesRoot nb kids wPt hPt) (objBytes 1 (rootBody nb kids wPt hPt)) := by
  have hs' : (f.setOffset 1).state = 1 := hs
  have h := (((((((Out.refl (f.setOffset 1)).o hs' (B "1 0 obj")).o hs' (B "<</Type /Pages")).o hs'
    (B "/Kids [" ++ kids.flatMap (fun (k : Nat) => sprintf "%d 0 R " [.d (k : Int)]) ++ B "]")).o hs' (sprintf "/Count %d" [.d nb])).o hs'
    (sprintf "/MediaBox [0 0 %.2f %.2f]" [.f wPt, .f hPt])).o hs' (B ">>")).o hs' (B "endobj")
  unfold Fpdf.putPagesRoot
  have e : [] ++ (B "1 0 obj" ++ [10]) ++ (B "<</Type /Pages" ++ [10]) ++ (B "/Kids [" ++ kids.flatMap (fun (k : Nat) => sprintf "%d 0 R " [.d (k : Int)]) ++ B "]" ++ [10])
      ++ (sprintf "/Count %d" [.d nb] ++ [10]) ++ (sprintf "/MediaBox [0 0 %.2f %.2f]" [.f wPt, .f hPt] ++ [10]) ++ (B ">>" ++ [10]) ++ (B "endobj" ++ [10])
      = objBytes 1 (rootBody nb kids wPt hPt) := by
    have e1 : sprintf "/Count %d" [.d nb] = B "/Count " ++ (intDec nb ++ []) := sprintfB_of_render _ _ _ rfl
    have e2 : ∀ k : Nat, sprintf "%d 0 R " [.d (k : Int)] = natDec k ++ B " 0 R " := by
      intro k
      have : sprintf "%d 0 R " [.d (k : Int)] = intDec k ++ B " 0 R " := sprintfB_of_render _ _ _ rfl
      rw [this, intDec_ofNat]
    rw [e1, intDec_ofNat]
    simp only [e2]
    unfold objBytes rootBody Body.bytes
    rw [show natDec 1 = B "1" by decide +kernel, show B " 0 obj\n" = B " 0 obj" ++ [10] from rfl, show B "1 0 obj" = B "1" ++ B " 0 obj" from rfl,
      show B "<</Type /Pages\n/Kids [" = B "<</Type /Pages" ++ [10] ++ B "/Kids [" from rfl, show B "]\n/Count " = B "]" ++ [10] ++ B "/Count " from rfl,
      show B "\n>>\n" = [10] ++ B ">>" ++ [10] from rfl, show B "\n" = [10] from rfl, show B "endobj\n" = B "endobj" ++ [10] from rfl]
    simp only [List.append_assoc, List.nil_append, List.append_nil]
  rw [← e]
  exact h

theorem putxobjectdict_pl (E : Ext) {f g : Fpdf} (h : Pl f g) : Pl f (g.putxobjectdict E) := by
  unfold Fpdf.putxobjectdict
  dsimp only
  refine Pl.foldl _ (fun f k => ?_) _ (Pl.foldl _ (fun f k => ?_) _ h)
  · split
    · split
      · ps
      · ps
    · ps
  · split
    · ps
    · ps

theorem putNumbered_pl (fmt : String) (l : List Nat) (i : Nat) {f g : Fpdf} (h : Pl f g) : Pl f (Fpdf.putNumbered fmt i l g) := by
  induction l generalizing i g with
  | nil => exact h
  | cons o r ih => exact ih _ (h.outf _ _)

theorem spotDict_pl (E : Ext) {f g : Fpdf} (h : Pl f g) : Pl f (g.spotColorPutResourceDict E) := by
  unfold Fpdf.spotColorPutResourceDict
  dsimp only
  refine Pl.outs (Pl.foldl _ (fun f k => ?_) _ (h.outs _)) _
  split
  · ps
  · ps

theorem putresourcedict_pl (E : Ext) {f g : Fpdf} (h : Pl f g) : Pl f (g.putresourcedict E) := by
  unfold Fpdf.putresourcedict Fpdf.putFontNames Fpdf.putNumberedNames
  dsimp only
  have key : ∀ (c : Prop) [Decidable c] (g : Fpdf) (s fmt : String) (i : Nat) (l : List Nat), Pl f g →
      Pl f (if c then (Fpdf.putNumbered fmt i l (g.outs s)).outs ">>" else g) := fun c _ g s fmt i l h =>
    Pl.opt h (Pl.outs (putNumbered_pl _ _ _ ((Pl.refl _).outs _)) _)
  apply spotDict_pl
  with_reducible apply key
  with_reducible apply key
  with_reducible apply key
  apply Pl.outs
  apply putxobjectdict_pl
  apply Pl.outs
  apply Pl.outs
  apply Pl.foldl
  · intro f k
    split
    · ps
    · ps
  · exact (h.outs _).outs _

/-- The resource dictionary object. -/
theorem putResourceObj_out (E : Ext) (f : Fpdf) (hs : f.state = 1) :
    ∃ d h1, Out (f.setOffset 2) (f.putResourceObj E) (objBytes 2 (.plain (B "<<\n" ++ d ++ B ">>\n"))) ∧ Out (f.setOffset 2) h1 (B "2 0 obj\n<<\n") ∧
      Out h1 (h1.putresourcedict E) d := by
  have hs' : (f.setOffset 2).state = 1 := hs
  have h1 : Out (f.setOffset 2) (((f.setOffset 2).outs "2 0 obj").outs "<<") _ := ((Out.refl (f.setOffset 2)).o hs' (B "2 0 obj")).o hs' (B "<<")
  obtain ⟨d, hd⟩ := (putresourcedict_pl E (Pl.refl (((f.setOffset 2).outs "2 0 obj").outs "<<"))).o (h1.state.trans hs')
  have h2 := ((h1.trans hd).o hs' (B ">>")).o hs' (B "endobj")
  refine ⟨d, ((f.setOffset 2).outs "2 0 obj").outs "<<", ?_, h1, hd⟩
  have e : [] ++ (B "2 0 obj" ++ [10]) ++ (B "<<" ++ [10]) ++ d ++ (B ">>" ++ [10]) ++ (B "endobj" ++ [10]) = objBytes 2 (.plain (B "<<\n" ++ d ++ B ">>\n")) := by
    unfold objBytes Body.bytes
    rw [show natDec 2 = B "2" by decide +kernel, show B " 0 obj\n" = B " 0 obj" ++ [10] from rfl, show B "2 0 obj" = B "2" ++ B " 0 obj" from rfl,
      show B "<<\n" = B "<<" ++ [10] from rfl, show B ">>\n" = B ">>" ++ [10] from rfl, show B "endobj\n" = B "endobj" ++ [10] from rfl]
    simp only [List.append_assoc, List.nil_append]
  rw [← e]; exact h2

/-! ### Layout -/

theorem putPagesRoot_err (f : Fpdf) (nb : Nat) (kids : List Nat) (wPt hPt : Rat) : (f.putPagesRoot nb kids wPt hPt).err = f.err := by
  have : Pl (f.setOffset 1) (f.putPagesRoot nb kids wPt hPt) := by
    unfold Fpdf.putPagesRoot
    dsimp only
    ps
  exact this.err

theorem putResourceObj_err (E : Ext) (f : Fpdf) : (f.putResourceObj E).err = f.err := by
  have : Pl (f.setOffset 2) (f.putResourceObj E) := by
    unfold Fpdf.putResourceObj
    dsimp only
    exact ((putresourcedict_pl E (((Pl.refl _).outs _).outs _)).outs _).outs _
  exact this.err

theorem aliased_err (E : Ext) (f : Fpdf) : (aliased E f).err = f.err := by
  obtain ⟨p, b, am, h, _⟩ := aliased_spec E f
  rw [h]

/-- Without errors, `enddoc` goes through all stages. -/
theorem enddoc_stages (E : Ext) (f : Fpdf) (he : f.err = none) (hg : (f.enddoc E).err = none) :
    f.enddoc E = (sEnd E f).putxref ∧ (sEnd E f).err = none ∧ (sDict E f).err = none ∧ (sRes E f).err = none ∧ (sRoot E f).err = none ∧
      (sLoop E f).1.err = none ∧ (sAtt E f).err = none := by
  unfold Fpdf.enddoc at hg ⊢
  rw [if_neg (by simp [he])] at hg ⊢
  dsimp only at hg ⊢
  rw [show ((f.putheader.putAttachments E).putAnnotationsAttachments E).putpages E = sRoot E f from putpages_eq E f] at hg ⊢
  have hxe : ∀ g : Fpdf, g.putxref.err = g.err := by
    intro g
    have h4 : ∀ (g : Fpdf) (o : List Nat), (g.putXrefEntries o).err = g.err := by
      intro g o
      unfold Fpdf.putXrefEntries
      induction o generalizing g with
      | nil => rfl
      | cons a o ih => exact (ih _).trans (out_err' _ _)
    have hif : ∀ (g : Fpdf), (if g.m.protect.encrypted = true then (g.outf "/Encrypt %d 0 R" [.d g.m.protect.objNum]).outs "/ID [()()]" else g).err = g.err := by
      intro g
      split
      · unfold Fpdf.outs Fpdf.outf; rw [out_err', out_err']
      · rfl
    unfold Fpdf.putxref
    dsimp only
    unfold Fpdf.outs Fpdf.outf at *
    rw [out_err', out_err', out_err', out_err', hif, out_err', out_err', out_err', out_err', out_err', h4, out_err', out_err', out_err']
  by_cases hr : ((sRoot E f).putresources E).err = none
  · rw [if_neg (by simp [hr])] at hg ⊢
    have hroot : (sRoot E f).err = none := by
      by_cases h0 : (sRoot E f).err = none
      · exact h0
      · unfold Fpdf.putresources at hr
        rw [if_pos h0] at hr
        exact absurd hr h0
    have hres : (sRoot E f).putresources E = ((sDict E f).putjavascript E).putEncrypt ∧ (sRes E f).err = none := by
      unfold Fpdf.putresources at hr ⊢
      rw [if_neg (by simp [hroot])] at hr ⊢
      dsimp only at hr ⊢
      rw [show (((((sRoot E f).layerPutLayers E).putBlendModes).putGradients).putSpotColors E).putfonts E = sFonts E f from rfl] at hr ⊢
      by_cases hf : (sFonts E f).err = none
      · rw [if_neg (by simp [hf])] at hr ⊢
        refine ⟨rfl, ?_⟩
        have h1 : (sDict E f).err = none := none_of_latch ((putjavascript_writes E (sDict E f)).trans (putEncrypt_writes _)).latch hr
        rw [show (sDict E f).err = (sRes E f).err from putResourceObj_err E _] at h1
        exact h1
      · rw [if_pos hf] at hr
        exact absurd hr hf
    rw [hres.1] at hg ⊢
    have hend : (sEnd E f).err = none := (hxe _).symm.trans hg
    have hd : (sDict E f).err = none := none_of_latch (sEnd_writes E f).latch hend
    have hl : (sLoop E f).1.err = none := (putPagesRoot_err _ _ _ _ _).symm.trans hroot
    refine ⟨rfl, hend, hd, hres.2, hroot, hl, ?_⟩
    have := none_of_latch (putPagesLoop_writes E _ _ _ _ _).latch hl
    exact (aliased_err E _).symm.trans this
  · rw [if_pos hr] at hg
    exact absurd hg hr

/-- The objects of the file in order, given the objects of the stages. -/
def allItems (A P M T : List Body) (root res : Body) : List (Nat × Body) :=
  num 3 A ++ num (3 + A.length) P ++ [(1, root)] ++ num (3 + A.length + P.length) M ++ [(2, res)] ++ num (3 + A.length + P.length + M.length) T

/-- The layout of the file. -/
theorem layout (E : Ext) (f : Fpdf) (hs : f.state = 1) (hn : f.n = 2) (ho : f.offsets = []) {A P M T : List Body}
    (hA : W f.putheader (sAtt E f) A) (hP : W (sAli E f) (sLoop E f).1 P) (hP0 : P ≠ []) (hM : W (sRoot E f) (sRes E f) M)
    (hT : W (sDict E f) (sEnd E f) T) :
    ∃ v d enc offs h1,
      let items := allItems A P M T (rootBody (sAtt E f).page (sLoop E f).2 (defDim (sAli E f)).1 (defDim (sAli E f)).2) (.plain (B "<<\n" ++ d ++ B ">>\n"))
      let pre := f.buffer ++ (B "%PDF-1." ++ natDec v ++ [10])
      (sEnd E f).putxref.buffer = pre ++ objsText items ++ (xrefText offs ++ trailerText (2 + A.length + P.length + M.length + T.length) enc (pre ++ objsText items).length) ∧
      offs.length = 2 + A.length + P.length + M.length + T.length ∧
      (∀ a j b c, items = a ++ (j, b) :: c → j ∉ c.map Prod.fst → j ≠ 0 → offs.getD (j - 1) 0 = pre.length + (objsText a).length) ∧
      Out ((sRes E f).setOffset 2) h1 (B "2 0 obj\n<<\n") ∧ Out h1 (h1.putresourcedict E) d ∧ v = f.putheader.m.pdfVersion ∧
      enc = (if (sEnd E f).m.protect.encrypted then some (sEnd E f).m.protect.objNum else none) := by
  obtain ⟨v, hv⟩ := putheader_spec f hs
  have hv1 : f.putheader.buffer = f.buffer ++ (B "%PDF-1." ++ natDec v ++ [10]) := by rw [hv]
  have hv2 : f.putheader.n = 2 := by rw [hv]; exact hn
  have hv3 : f.putheader.offsets = [] := by rw [hv]; exact ho
  have hv4 : f.putheader.state = 1 := by rw [hv]; exact hs
  have wA := hA.wi' (by unfold OffOk; rw [hv3]; simp)
  have lA := hA.len (by rw [hv3]; simp)
  obtain ⟨ps, b, am, hal, _⟩ := aliased_spec E (sAtt E f)
  have al1 : (sAli E f).buffer = (sAtt E f).buffer := by show (aliased E (sAtt E f)).buffer = _; rw [hal]
  have al2 : (sAli E f).n = (sAtt E f).n := by show (aliased E (sAtt E f)).n = _; rw [hal]
  have al3 : (sAli E f).offsets = (sAtt E f).offsets := by show (aliased E (sAtt E f)).offsets = _; rw [hal]
  have al4 : (sAli E f).state = (sAtt E f).state := by show (aliased E (sAtt E f)).state = _; rw [hal]
  have wAl : WI (sAtt E f) (sAli E f) [] := ⟨by simp [al1, objsText], al4, fun j _ => by rw [al3], by simp⟩
  have wP := hP.wi' (by unfold OffOk; rw [al3, al2]; exact lA.1)
  have lP := hP.len (by rw [al3, al2]; exact lA.1)
  have sP : (sLoop E f).1.state = 1 := by rw [hP.state, al4, hA.state, hv4]
  have nP : (sLoop E f).1.n = 2 + A.length + P.length := by rw [hP.n, al2, hA.n, hv2]
  have oP : (sLoop E f).1.offsets.length = 2 + A.length + P.length + 1 := by rw [lP.2.1 hP0, nP]
  have hR := WI.special (f := (sLoop E f).1) (g := sRoot E f) 1 (rootBody (sAtt E f).page (sLoop E f).2 (defDim (sAli E f)).1 (defDim (sAli E f)).2)
    (putPagesRoot_out _ sP _ _ _ _) (by omega)
  have sR : (sRoot E f).state = 1 := by rw [hR.1.state, sP]
  have wM := hM.wi' (by unfold OffOk; rw [hR.2.1, hR.2.2, oP, nP])
  have lM := hM.len (by rw [hR.2.1, hR.2.2, oP, nP])
  have nM : (sRes E f).n = 2 + A.length + P.length + M.length := by rw [hM.n, hR.2.1, nP]
  have oM : (sRes E f).offsets.length = 2 + A.length + P.length + M.length + 1 := by
    by_cases h0 : M = []
    · have h1 := lM.1; have h2 := lM.2.2; rw [nM] at h1; rw [hR.2.2, oP] at h2; rw [h0] at h1 ⊢; simp at h1 ⊢; omega
    · rw [lM.2.1 h0, nM]
  have sM : (sRes E f).state = 1 := by rw [hM.state, sR]
  obtain ⟨d, h1, hd1, hd2, hd3⟩ := putResourceObj_out E (sRes E f) sM
  have hD := WI.special (f := sRes E f) (g := sDict E f) 2 (.plain (B "<<\n" ++ d ++ B ">>\n")) hd1 (by omega)
  have sD : (sDict E f).state = 1 := by rw [hD.1.state, sM]
  have wT := hT.wi' (by unfold OffOk; rw [hD.2.1, hD.2.2, oM, nM])
  have lT := hT.len (by rw [hD.2.1, hD.2.2, oM, nM])
  have nT : (sEnd E f).n = 2 + A.length + P.length + M.length + T.length := by rw [hT.n, hD.2.1, nM]
  have oT : (sEnd E f).offsets.length = 2 + A.length + P.length + M.length + T.length + 1 := by
    by_cases h0 : T = []
    · have h1 := lT.1; have h2 := lT.2.2; rw [nT] at h1; rw [hD.2.2, oM] at h2; rw [h0] at h1 ⊢; simp at h1 ⊢; omega
    · rw [lT.2.1 h0, nT]
  have sT : (sEnd E f).state = 1 := by rw [hT.state, sD]
  have wAll := ((((wA.trans wAl).trans wP).trans hR.1).trans wM).trans hD.1 |>.trans wT
  have hitems : num (f.putheader.n + 1) A ++ [] ++ num ((sAli E f).n + 1) P ++ [(1, rootBody (sAtt E f).page (sLoop E f).2 (defDim (sAli E f)).1 (defDim (sAli E f)).2)]
      ++ num ((sRoot E f).n + 1) M ++ [(2, .plain (B "<<\n" ++ d ++ B ">>\n"))] ++ num ((sDict E f).n + 1) T
      = allItems A P M T (rootBody (sAtt E f).page (sLoop E f).2 (defDim (sAli E f)).1 (defDim (sAli E f)).2) (.plain (B "<<\n" ++ d ++ B ">>\n")) := by
    rw [hv2, al2, hA.n, hv2, hR.2.1, nP, hD.2.1, nM]
    unfold allItems
    rw [List.append_nil, show 2 + A.length + 1 = 3 + A.length by omega, show 2 + A.length + P.length + 1 = 3 + A.length + P.length by omega,
      show 2 + A.length + P.length + M.length + 1 = 3 + A.length + P.length + M.length by omega]
  rw [hitems] at wAll
  obtain ⟨hx, _⟩ := putxref_out (sEnd E f) sT (by rw [oT, nT])
  refine ⟨v, d, if (sEnd E f).m.protect.encrypted then some (sEnd E f).m.protect.objNum else none, (sEnd E f).offsets.drop 1, h1, ?_, ?_, ?_, hd2, hd3, by rw [hv], rfl⟩
  · rw [hx, wAll.buf, hv1, nT]
  · rw [List.length_drop, oT]; omega
  · intro a j b c he hj hj0
    have := wAll.new a j b c he hj
    rw [hv1] at this
    rw [← this, List.getD_eq_getElem?_getD, List.getElem?_drop, show 1 + (j - 1) = j by omega, ← List.getD_eq_getElem?_getD]

end Verif.Proof
