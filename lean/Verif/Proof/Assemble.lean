import Verif.Proof.WriterObjs
import Verif.Proof.Num
/-
The layout of the finished file.
-/
namespace Verif.Proof
open Verif Verif.Model Verif.Spec

/-- Consecutive numbering. -/
def num : Nat → List Body → List (Nat × Body)
  | _, [] => []
  | k, b :: r => (k, b) :: num (k + 1) r

theorem objText_eq (n : Nat) (b : Body) : objText n b = objBytes n b := by unfold objText objBytes; rw [natDec_decimal]

theorem objsText_append (a b : List (Nat × Body)) : objsText (a ++ b) = objsText a ++ objsText b := by simp [objsText]
theorem objsText_cons (x : Nat × Body) (b : List (Nat × Body)) : objsText (x :: b) = objText x.1 x.2 ++ objsText b := by simp [objsText]

theorem objsText_num (k : Nat) (o : List Body) : objsText (num k o) = objsBytes k o := by
  induction o generalizing k with
  | nil => rfl
  | cons b o ih => simp only [num, objsText_cons, objsBytes, ih, objText_eq]

theorem num_length (k : Nat) (o : List Body) : (num k o).length = o.length := by
  induction o generalizing k with
  | nil => rfl
  | cons b o ih => simp [num, ih]

theorem num_fst (k : Nat) (o : List Body) : (num k o).map Prod.fst = List.range' k o.length := by
  induction o generalizing k with
  | nil => rfl
  | cons b o ih => simp [num, ih, List.range'_succ]

theorem num_append (k : Nat) (a b : List Body) : num k (a ++ b) = num k a ++ num (k + a.length) b := by
  induction a generalizing k with
  | nil => simp [num]
  | cons x a ih => simp only [List.cons_append, num, ih, List.length_cons]; rw [show k + 1 + a.length = k + (a.length + 1) by omega]

theorem num_getElem? (k : Nat) (o : List Body) (i : Nat) : (num k o)[i]? = (o[i]?).map fun b => (k + i, b) := by
  induction o generalizing k i with
  | nil => rfl
  | cons b o ih =>
    cases i with
    | zero => rfl
    | succ i => simp only [num, List.getElem?_cons_succ, ih]; rw [show k + 1 + i = k + (i + 1) by omega]

theorem num_take (k : Nat) (o : List Body) (i : Nat) : (num k o).take i = num k (o.take i) := by
  induction o generalizing k i with
  | nil => simp [num]
  | cons b o ih =>
    cases i with
    | zero => rfl
    | succ i => simp only [num, List.take_succ_cons, ih]

/-- The objects `items` were written in this order, and the offset table was updated accordingly. -/
structure WI (f g : Fpdf) (items : List (Nat × Body)) : Prop where
  buf : g.buffer = f.buffer ++ objsText items
  state : g.state = f.state
  old : ∀ j, j ∉ items.map Prod.fst → g.offsets.getD j 0 = f.offsets.getD j 0
  new : ∀ a j b c, items = a ++ (j, b) :: c → j ∉ c.map Prod.fst → g.offsets.getD j 0 = f.buffer.length + (objsText a).length

theorem WI.trans {f g h : Fpdf} {x y : List (Nat × Body)} (h1 : WI f g x) (h2 : WI g h y) : WI f h (x ++ y) := by
  refine ⟨by rw [h2.buf, h1.buf, objsText_append, List.append_assoc], h2.state.trans h1.state, ?_, ?_⟩
  · intro j hj
    rw [List.map_append, List.mem_append, not_or] at hj
    rw [h2.old j hj.2, h1.old j hj.1]
  · intro a j b c he hj
    rcases List.append_eq_append_iff.mp he with ⟨m, hm1, hm2⟩ | ⟨m, hm1, hm2⟩
    · rw [h2.new m j b c hm2 hj, h1.buf, hm1, objsText_append]
      simp only [List.length_append]; omega
    · cases m with
      | nil =>
        rw [List.nil_append] at hm2
        rw [h2.new [] j b c hm2.symm hj, h1.buf, hm1]
        simp [objsText]
      | cons z m =>
        rw [List.cons_append, List.cons.injEq] at hm2
        obtain ⟨rfl, rfl⟩ := hm2
        rw [List.map_append, List.mem_append, not_or] at hj
        rw [h2.old j hj.2, h1.new a j b m hm1 hj.1]

theorem W.wi {f g : Fpdf} {o : List Body} (h : W f g o) (hfr : ∀ j, f.n < j → f.offsets.getD j 0 = 0 ∧ g.offsets.getD (j + o.length) 0 = 0) : WI f g (num (f.n + 1) o) := by
  refine ⟨by rw [h.buf, objsText_num], h.state, ?_, ?_⟩
  · intro j hj
    rw [num_fst, List.mem_range'_1] at hj
    by_cases hjn : j ≤ f.n
    · exact h.old j hjn
    · have h1 := (hfr j (by omega)).1
      have h2 := (hfr (j - o.length) (by omega)).2
      rw [show j - o.length + o.length = j by omega] at h2
      rw [h1, h2]
  · intro a j b c he hj
    have hlen := congrArg List.length he
    rw [num_length, List.length_append, List.length_cons] at hlen
    have hi : (num (f.n + 1) o)[a.length]? = some (j, b) := by rw [he]; simp
    rw [num_getElem?] at hi
    obtain ⟨b', hb, hb2⟩ := Option.map_eq_some_iff.mp hi
    have hj2 : f.n + 1 + a.length = j := congrArg Prod.fst hb2
    have hta : num (f.n + 1) (o.take a.length) = a := by rw [← num_take, he]; simp
    rw [← hj2, h.new a.length (by omega), ← objsText_num, hta]

/-- The offset table has no entries beyond the last object. -/
def OffOk (f : Fpdf) : Prop := f.offsets.length ≤ f.n + 1

theorem getD_len {l : List Nat} {j : Nat} (h : l.length ≤ j) : l.getD j 0 = 0 := by
  rw [List.getD_eq_getElem?_getD, List.getElem?_eq_none h]; rfl

theorem W.wi' {f g : Fpdf} {o : List Body} (h : W f g o) (ho : OffOk f) : WI f g (num (f.n + 1) o) := by
  refine h.wi (fun j hj => ⟨getD_len (by unfold OffOk at ho; omega), getD_len ?_⟩)
  have := (h.len ho).1
  rw [h.n] at this
  omega

/-- Writing a reserved object. -/
theorem WI.special {f g : Fpdf} (i : Nat) (b : Body) (hg : Out (f.setOffset i) g (objBytes i b)) (hi : i < f.offsets.length) :
    WI f g [(i, b)] ∧ g.n = f.n ∧ g.offsets.length = f.offsets.length := by
  refine ⟨⟨?_, hg.state, ?_, ?_⟩, hg.n, ?_⟩
  · rw [hg.buf]; simp [objsText, objText_eq, Fpdf.setOffset]
  · intro j hj
    have : j ≠ i := by simpa using hj
    rw [hg.offsets]
    show (f.offsets.set i _).getD j 0 = _
    rw [List.getD_eq_getElem?_getD, List.getElem?_set_ne (by omega), ← List.getD_eq_getElem?_getD]
  · intro a j b' c he hj
    have hl := congrArg List.length he
    simp only [List.length_append, List.length_cons, List.length_nil] at hl
    have ha : a = [] := List.eq_nil_of_length_eq_zero (by omega)
    subst ha
    rw [List.nil_append, List.cons.injEq, Prod.mk.injEq] at he
    rw [hg.offsets, ← he.1.1]
    show (f.offsets.set i _).getD i 0 = _
    rw [List.getD_eq_getElem?_getD, List.getElem?_set_self hi]
    simp [objsText]
  · rw [hg.offsets]; simp [Fpdf.setOffset]

/-! ### The cross-reference table -/

/-- The text of the cross-reference table. -/
def xrefText (offs : List Nat) : Bytes :=
  B "xref\n0 " ++ natDec (offs.length + 1) ++ B "\n0000000000 65535 f \n" ++ offs.flatMap fun o => zeroPad 10 o ++ B " 00000 n \n"

/-- The text of the trailer. -/
def trailerText (n : Nat) (enc : Option Nat) (start : Nat) : Bytes :=
  B "trailer\n<<\n/Size " ++ natDec (n + 1) ++ B "\n/Root " ++ natDec n ++ B " 0 R\n/Info " ++ natDec (n - 1) ++ B " 0 R\n"
    ++ (match enc with | some e => B "/Encrypt " ++ natDec e ++ B " 0 R\n/ID [()()]\n" | none => [])
    ++ B ">>\nstartxref\n" ++ natDec start ++ B "\n%%EOF\n"

theorem strip_append (p s : Bytes) : strip p (p ++ s) = some s := by
  induction p with
  | nil => cases s <;> rfl
  | cons c p ih => simp [strip, ih]

theorem readEntry_zeroPad (o : Nat) (ho : o < 10 ^ 10) (r : Bytes) : readEntry (zeroPad 10 o ++ B " 00000 n \n" ++ r) = some (o, r) := by
  have hz : zeroPad 10 o = padDec 10 o := by unfold zeroPad; rw [if_pos ho]
  have hl : (padDec 10 o).length = 10 := padDec_length 10 o
  unfold readEntry
  rw [hz, List.append_assoc, List.take_left' hl, List.drop_left' hl, strip_append, padDec_val, Nat.mod_eq_of_lt ho]
  rw [if_pos ⟨by simp [hl], by rw [List.all_eq_true]; exact padDec_digits 10 o⟩]
  rfl

theorem readEntries_text (offs : List Nat) (h : ∀ o ∈ offs, o < 10 ^ 10) (r : Bytes) :
    readEntries offs.length (offs.flatMap (fun o => zeroPad 10 o ++ B " 00000 n \n") ++ r) = some (offs, r) := by
  induction offs with
  | nil => rfl
  | cons o offs ih =>
    simp only [List.length_cons, List.flatMap_cons, List.append_assoc, readEntries]
    rw [← List.append_assoc (zeroPad 10 o), readEntry_zeroPad o (h o (by simp))]
    simp only [Option.bind_eq_bind, Option.bind_some]
    rw [ih (fun x hx => h x (by simp [hx]))]
    rfl

/-- The cross-reference table is readable. -/
theorem readXref_text (pre : Bytes) (offs : List Nat) (h : ∀ o ∈ offs, o < 10 ^ 10) (r : Bytes) :
    readXref (pre ++ (xrefText offs ++ r)) pre.length = some (offs, r) := by
  unfold readXref xrefText
  rw [List.drop_left, List.append_assoc, List.append_assoc, List.append_assoc, strip_append]
  simp only [Option.bind_eq_bind, Option.bind_some]
  rw [show B "\n0000000000 65535 f \n" ++ ((List.flatMap (fun o => zeroPad 10 o ++ B " 00000 n \n") offs) ++ r)
    = (10 : UInt8) :: (B "0000000000 65535 f \n" ++ ((List.flatMap (fun o => zeroPad 10 o ++ B " 00000 n \n") offs) ++ r)) from rfl]
  rw [readNat_natDec _ _ _ rfl]
  simp only [Option.bind_some]
  rw [show (10 : UInt8) :: (B "0000000000 65535 f \n" ++ ((List.flatMap (fun o => zeroPad 10 o ++ B " 00000 n \n") offs) ++ r))
    = B "\n0000000000 65535 f \n" ++ ((List.flatMap (fun o => zeroPad 10 o ++ B " 00000 n \n") offs) ++ r) from rfl]
  rw [strip_append]
  simp only [Option.bind_some, Nat.add_sub_cancel]
  exact readEntries_text offs h r

/-- The end of the file leads to the cross-reference table. -/
theorem readStart_text (pre : Bytes) (n : Nat) (enc : Option Nat) (start : Nat) : readStart (pre ++ trailerText n enc start) = some start := by
  unfold trailerText
  generalize B "trailer\n<<\n/Size " ++ natDec (n + 1) ++ B "\n/Root " ++ natDec n ++ B " 0 R\n/Info " ++ natDec (n - 1) ++ B " 0 R\n"
    ++ (match enc with | some e => B "/Encrypt " ++ natDec e ++ B " 0 R\n/ID [()()]\n" | none => []) = X
  have e : (pre ++ (X ++ B ">>\nstartxref\n" ++ natDec start ++ B "\n%%EOF\n")).reverse
      = (B "\n%%EOF\n").reverse ++ ((natDec start).reverse ++ ((B "startxref\n").reverse ++ (B ">>\n").reverse ++ (X.reverse ++ pre.reverse))) := by
    rw [show B ">>\nstartxref\n" = B ">>\n" ++ B "startxref\n" from rfl]
    simp only [List.reverse_append, List.append_assoc]
  unfold readStart
  rw [e, strip_append]
  simp only [Option.bind_eq_bind, Option.bind_some]
  obtain ⟨h1, h2, h3⟩ := natDec_spec start
  have hd : ∀ c ∈ (natDec start).reverse, isDigit c = true := fun c hc => h2 c (by simpa using hc)
  have hs : (B "startxref\n").reverse ++ (B ">>\n").reverse ++ (X.reverse ++ pre.reverse)
      = (10 : UInt8) :: ((B "startxref").reverse ++ (B ">>\n").reverse ++ (X.reverse ++ pre.reverse)) := rfl
  rw [hs, (takeWhile_digits _ hd 10 _ rfl).1, (takeWhile_digits _ hd 10 _ rfl).2, ← hs, List.append_assoc, strip_append]
  simp only [Option.bind_some, List.reverse_eq_nil_iff, h1, if_false, List.reverse_reverse, h3]
  rfl

/-- A file with such a tail reads correctly. -/
theorem read_file (pre : Bytes) (offs : List Nat) (h : ∀ o ∈ offs, o < 10 ^ 10) (enc : Option Nat) (n : Nat) :
    readStart (pre ++ (xrefText offs ++ trailerText n enc pre.length)) = some pre.length ∧
    readXref (pre ++ (xrefText offs ++ trailerText n enc pre.length)) pre.length = some (offs, trailerText n enc pre.length) := by
  refine ⟨?_, readXref_text pre offs h _⟩
  rw [← List.append_assoc]; exact readStart_text _ _ _ _

theorem Out.o {f g : Fpdf} {b : Bytes} (h : Out f g b) (hs : f.state = 1) (s : Bytes) : Out f (g.out s) (b ++ (s ++ [10])) :=
  h.trans (Out.out (h.state.trans hs) s)

theorem sprintf_d1 (n : Nat) : sprintf "%d" [.d (n : Int)] = natDec n := by
  have : sprintf "%d" [.d (n : Int)] = intDec n ++ [] := sprintfB_of_render _ _ _ rfl
  rw [this, intDec_ofNat, List.append_nil]

theorem putXrefEntries_out (f : Fpdf) (hs : f.state = 1) (offs : List Nat) : Out f (f.putXrefEntries offs) (offs.flatMap fun o => zeroPad 10 o ++ B " 00000 n \n") := by
  unfold Fpdf.putXrefEntries
  induction offs generalizing f with
  | nil => exact Out.refl f
  | cons o offs ih =>
    rw [List.foldl_cons, List.flatMap_cons]
    have e : sprintf "%010d 00000 n " [.d (o : Int)] ++ [10] = zeroPad 10 o ++ B " 00000 n \n" := by
      have : sprintf "%010d 00000 n " [.d (o : Int)] = zeroPad 10 o ++ B " 00000 n " := sprintfB_of_render _ _ _ rfl
      rw [this, List.append_assoc]; rfl
    have h1 := Out.out hs (sprintf "%010d 00000 n " [.d (o : Int)])
    rw [e] at h1
    exact h1.trans (ih _ (h1.state.trans hs))

/-- The trailer, `/repo/fpdf.go:4816-4829`. -/
theorem putxref_out (f : Fpdf) (hs : f.state = 1) (hl : f.offsets.length = f.n + 1) :
    f.putxref.buffer = f.buffer ++ (xrefText (f.offsets.drop 1) ++ trailerText f.n (if f.m.protect.encrypted then some f.m.protect.objNum else none) f.buffer.length)
      ∧ f.putxref.err = f.err := by
  have h1 : Out f (f.outs "xref") _ := Out.out hs _
  have h2 := h1.o hs (sprintf "0 %d" [.d ((f.outs "xref").n + 1 : Nat)])
  have h3 := h2.o hs (B "0000000000 65535 f ")
  have h4 := h3.trans (putXrefEntries_out _ (h3.state.trans hs) (((((f.outs "xref").outf "0 %d" [.d ((f.outs "xref").n + 1 : Nat)]).outs "0000000000 65535 f ").offsets.drop 1).take
    (((f.outs "xref").outf "0 %d" [.d ((f.outs "xref").n + 1 : Nat)]).outs "0000000000 65535 f ").n))
  unfold Fpdf.putxref
  dsimp only
  have ho : (((f.outs "xref").outf "0 %d" [.d ((f.outs "xref").n + 1 : Nat)]).outs "0000000000 65535 f ").offsets = f.offsets := h3.offsets
  have hn : (((f.outs "xref").outf "0 %d" [.d ((f.outs "xref").n + 1 : Nat)]).outs "0000000000 65535 f ").n = f.n := h3.n
  rw [ho, hn] at h4 ⊢
  rw [List.take_of_length_le (by simp [hl])] at h4 ⊢
  have h4' : Out f (Fpdf.putXrefEntries (((f.outs "xref").outf "0 %d" [.d ((f.outs "xref").n + 1 : Nat)]).outs "0000000000 65535 f ") (f.offsets.drop 1)) (xrefText (f.offsets.drop 1)) := by
    have e : B "xref" ++ [10] ++ (sprintf "0 %d" [.d ((f.outs "xref").n + 1 : Nat)] ++ [10]) ++ (B "0000000000 65535 f " ++ [10]) ++
        (f.offsets.drop 1).flatMap (fun o => zeroPad 10 o ++ B " 00000 n \n") = xrefText (f.offsets.drop 1) := by
      have : sprintf "0 %d" [.d ((f.outs "xref").n + 1 : Nat)] = B "0 " ++ (intDec ((f.outs "xref").n + 1 : Nat) ++ []) := sprintfB_of_render _ _ _ rfl
      rw [this, h1.n, intDec_ofNat, List.append_nil]
      unfold xrefText
      rw [List.length_drop, hl, Nat.add_sub_cancel, show B "xref\n0 " = B "xref" ++ [10] ++ B "0 " from rfl,
        show B "\n0000000000 65535 f \n" = [10] ++ B "0000000000 65535 f " ++ [10] from rfl]
      simp only [List.append_assoc]
    rw [← e]; exact h4
  clear h4 h3 h2 h1 ho hn
  generalize Fpdf.putXrefEntries (((f.outs "xref").outf "0 %d" [.d ((f.outs "xref").n + 1 : Nat)]).outs "0000000000 65535 f ") (f.offsets.drop 1) = g at h4' ⊢
  have hgs := h4'.state.trans hs
  have k1 : Out g (g.outs "trailer") _ := Out.out hgs _
  have k2 : Out g ((g.outs "trailer").outs "<<") _ := k1.o hgs _
  have k3 : Out g (((g.outs "trailer").outs "<<").outf "/Size %d" [.d (((g.outs "trailer").outs "<<").n + 1 : Nat)]) _ := k2.o hgs _
  generalize hg3 : ((g.outs "trailer").outs "<<").outf "/Size %d" [.d (((g.outs "trailer").outs "<<").n + 1 : Nat)] = g3 at k3 ⊢
  rw [k2.n] at k3
  have k4 : Out g (g3.outf "/Root %d 0 R" [.d g3.n]) _ := k3.o hgs _
  generalize hg4 : g3.outf "/Root %d 0 R" [.d g3.n] = g4 at k4 ⊢
  rw [k3.n] at k4
  have k5 : Out g (g4.outf "/Info %d 0 R" [.d (g4.n - 1 : Nat)]) _ := k4.o hgs _
  generalize hg5 : g4.outf "/Info %d 0 R" [.d (g4.n - 1 : Nat)] = g5 at k5 ⊢
  rw [k4.n] at k5
  have hm : g5.m.protect.encrypted = f.m.protect.encrypted ∧ g5.m.protect.objNum = f.m.protect.objNum := by
    have h := (k5.fix).trans h4'.fix
    exact ⟨by have := congrArg (fun x : Fpdf => x.m.protect.encrypted) h; exact this, by have := congrArg (fun x : Fpdf => x.m.protect.objNum) h; exact this⟩
  have k6 : Out g (if g5.m.protect.encrypted = true then (g5.outf "/Encrypt %d 0 R" [.d g5.m.protect.objNum]).outs "/ID [()()]" else g5)
      ((B "trailer" ++ [10] ++ (B "<<" ++ [10]) ++ (sprintf "/Size %d" [.d (g.n + 1 : Nat)] ++ [10]) ++ (sprintf "/Root %d 0 R" [.d g.n] ++ [10]) ++
        (sprintf "/Info %d 0 R" [.d (g.n - 1 : Nat)] ++ [10])) ++
        (match (if f.m.protect.encrypted then some f.m.protect.objNum else none : Option Nat) with | some e => B "/Encrypt " ++ natDec e ++ B " 0 R\n/ID [()()]\n" | none => [])) := by
    rw [hm.1, hm.2]
    by_cases he : f.m.protect.encrypted = true
    · rw [if_pos he, if_pos he]
      have k := (k5.o hgs (sprintf "/Encrypt %d 0 R" [.d f.m.protect.objNum])).o hgs (B "/ID [()()]")
      have e : sprintf "/Encrypt %d 0 R" [.d f.m.protect.objNum] = B "/Encrypt " ++ (intDec f.m.protect.objNum ++ B " 0 R") := sprintfB_of_render _ _ _ rfl
      rw [e, intDec_ofNat] at k
      dsimp only
      rw [show B " 0 R\n/ID [()()]\n" = B " 0 R" ++ [10] ++ B "/ID [()()]" ++ [10] from rfl]
      simp only [List.append_assoc] at k ⊢
      rw [show g5.outf "/Encrypt %d 0 R" [.d f.m.protect.objNum] = g5.out (B "/Encrypt " ++ (natDec f.m.protect.objNum ++ B " 0 R")) by
        unfold Fpdf.outf; rw [e, intDec_ofNat]]
      exact k
    · rw [if_neg he, if_neg he, List.append_nil]; exact k5
  generalize (if g5.m.protect.encrypted = true then (g5.outf "/Encrypt %d 0 R" [.d g5.m.protect.objNum]).outs "/ID [()()]" else g5) = g6 at k6 ⊢
  have k7 := (((k6.o hgs (B ">>")).o hgs (B "startxref")).o hgs (sprintf "%d" [.d f.buffer.length])).o hgs (B "%%EOF")
  have kk := h4'.trans k7
  refine ⟨kk.buf.trans ?_, kk.err⟩
  congr 2
  have e1 : sprintf "/Size %d" [.d (g.n + 1 : Nat)] = B "/Size " ++ (intDec (g.n + 1 : Nat) ++ []) := sprintfB_of_render _ _ _ rfl
  have e2 : sprintf "/Root %d 0 R" [.d g.n] = B "/Root " ++ (intDec (g.n : Nat) ++ B " 0 R") := sprintfB_of_render _ _ _ rfl
  have e3 : sprintf "/Info %d 0 R" [.d (g.n - 1 : Nat)] = B "/Info " ++ (intDec (g.n - 1 : Nat) ++ B " 0 R") := sprintfB_of_render _ _ _ rfl
  rw [e1, e2, e3, sprintf_d1, h4'.n, intDec_ofNat, intDec_ofNat, intDec_ofNat]
  unfold trailerText
  rw [show B "trailer\n<<\n/Size " = B "trailer" ++ [10] ++ B "<<" ++ [10] ++ B "/Size " from rfl, show B "\n/Root " = [10] ++ B "/Root " from rfl,
    show B " 0 R\n/Info " = B " 0 R" ++ [10] ++ B "/Info " from rfl, show B " 0 R\n" = B " 0 R" ++ [10] from rfl,
    show B ">>\nstartxref\n" = B ">>" ++ [10] ++ B "startxref" ++ [10] from rfl, show B "\n%%EOF\n" = [10] ++ B "%%EOF" ++ [10] from rfl]
  simp only [List.append_assoc, List.append_nil]

end Verif.Proof
