import Verif.Raster.Pnm
import Verif.Raster.PageCore

/-! # Helper lemmas: reading PNM -/

namespace Verif.Raster

open Spec

theorem dropLine_append (c r : Bytes) (h : (10 : UInt8) ∉ c) : dropLine (c ++ (10 :: r)) = r := by
  induction c with
  | nil => simp [dropLine]
  | cons b c ih =>
    simp only [List.mem_cons, not_or] at h
    simp only [List.cons_append, dropLine]
    rw [if_neg (fun hb => h.1 hb.symm), ih h.2]

theorem dropComments_not (s : Bytes) (h : s.head? ≠ some 35) : dropComments s = s := by
  unfold dropComments
  cases s with
  | nil => rfl
  | cons b r => simp only; rw [if_neg (by simpa using h)]

theorem dropComments_comments (cs : List Bytes) (s : Bytes) (h : ∀ c ∈ cs, (10 : UInt8) ∉ c) (hs : s.head? ≠ some 35) :
    dropComments ((cs.map (fun c => ascii "#" ++ (c ++ ascii "\n"))).flatten ++ s) = s := by
  induction cs with
  | nil => simpa using dropComments_not s hs
  | cons c cs ih =>
    have ha : ascii "#" = [35] := by decide
    have hb : ascii "\n" = [10] := by decide
    have e : ((c :: cs).map (fun c => ascii "#" ++ (c ++ ascii "\n"))).flatten ++ s =
        35 :: (c ++ (10 :: ((cs.map (fun c => ascii "#" ++ (c ++ ascii "\n"))).flatten ++ s))) := by
      simp [ha, hb]
    rw [e, dropComments]
    simp only [if_true]
    rw [dropLine_append c _ (h c (by simp)), ih (fun c hc => h c (by simp [hc]))]

/-- A token between white space. -/
theorem readToken_append (ws tok r : Bytes) (hw : ∀ b ∈ ws, isSpace b = true) (hne : tok ≠ [])
    (ht : ∀ b ∈ tok, isSpace b = false) (hr : ∀ b, r.head? = some b → isSpace b = true) :
    readToken (ws ++ (tok ++ r)) = (tok, r) := by
  unfold readToken
  have h1 : (ws ++ (tok ++ r)).dropWhile isSpace = tok ++ r := by
    apply dropWhile_all hw
    intro a ha
    cases tok with
    | nil => exact absurd rfl hne
    | cons t ts => simp at ha; subst ha; exact ht t (by simp)
  simp only [h1]
  rw [takeWhile_all (by intro a ha; simp [ht a ha]) (by intro a ha; simp [hr a ha]),
    dropWhile_all (by intro a ha; simp [ht a ha]) (by intro a ha; simp [hr a ha])]

theorem dec_not_space (n : Nat) : ∀ b ∈ dec n, isSpace b = false :=
  fun b hb => digit_not_space (dec_digits n b hb)

theorem dec_head (n : Nat) (r : Bytes) : (dec n ++ r).head? ≠ some 35 := by
  have h := dec_digits n
  have hne := dec_ne_nil n
  cases hd : dec n with
  | nil => exact absurd hd hne
  | cons b bs =>
    have := h b (by rw [hd]; simp)
    intro hc
    simp at hc
    subst hc
    revert this; decide

theorem head?_append_ws {ws r : Bytes} (h : ws ≠ [] ∧ ∀ b ∈ ws, isSpace b = true) :
    ∀ b, (ws ++ r).head? = some b → isSpace b = true := by
  intro b hb
  obtain ⟨a, as, rfl⟩ := List.exists_cons_of_ne_nil h.1
  simp at hb
  subst hb
  exact h.2 _ (by simp)

theorem ignoreComments_newline (s : Bytes) (h : s.head? ≠ some 35) : ignoreComments (10 :: s) = s := by
  unfold ignoreComments
  rw [if_pos (by rfl)]
  simpa using dropComments_not s h

/-- The header of a well-formed picture is read as such if a newline follows it, and if the pixels do not begin with '#'. -/
theorem pnmHeader_bytes (pt : Nat → Nat → Nat) (p : Params) (g : PnmPage) (more : Bytes) (h : g.Wf) (hl : g.last = 10)
    (hx : (g.pixels ++ more).head? ≠ some 35) (hurf : g.kind = .pbm → p.format ≠ .URF) :
    pnmHeader pt p (g.bytes ++ more) = .ok (g.params pt p, g.pixels ++ more) := by
  have hnl : ascii "\n" = [10] := by decide
  have hmagic : g.kind.magic ≠ [] ∧ ∀ b ∈ g.kind.magic, isSpace b = false := by
    cases g.kind <;> decide
  have hmax : g.kind ≠ .pbm → g.kind.maxval ≠ [] ∧ ∀ b ∈ g.kind.maxval, isSpace b = false := by
    cases g.kind <;> decide
  let tail := (if g.kind = .pbm then [] else g.sep2 ++ g.kind.maxval) ++ (g.last :: (g.pixels ++ more))
  have htail : ∀ b, tail.head? = some b → isSpace b = true := by
    intro b hb
    simp only [tail] at hb
    split at hb
    · simp at hb; subst hb; exact h.last
    · rw [List.append_assoc] at hb
      exact head?_append_ws h.sep2 b hb
  have e0 : g.bytes ++ more = [] ++ (g.kind.magic ++ (10 :: ((g.comments.map (fun c => ascii "#" ++ (c ++ ascii "\n"))).flatten ++
      (dec g.width ++ (g.sep1 ++ (dec g.height ++ tail)))))) := by
    simp only [PnmPage.bytes, tail, hnl, List.nil_append, List.append_assoc, List.cons_append]
  have t1 : readToken (g.bytes ++ more) = (g.kind.magic, 10 :: ((g.comments.map (fun c => ascii "#" ++ (c ++ ascii "\n"))).flatten ++
      (dec g.width ++ (g.sep1 ++ (dec g.height ++ tail))))) := by
    rw [e0, readToken_append [] _ _ (by simp) hmagic.1 hmagic.2]
    intro b hb; simp at hb; subst hb; decide
  have t2 : ignoreComments (10 :: ((g.comments.map (fun c => ascii "#" ++ (c ++ ascii "\n"))).flatten ++
      (dec g.width ++ (g.sep1 ++ (dec g.height ++ tail))))) = dec g.width ++ (g.sep1 ++ (dec g.height ++ tail)) := by
    unfold ignoreComments
    rw [if_pos (by rfl)]
    simp only [List.drop_succ_cons, List.drop_zero]
    exact dropComments_comments _ _ h.comments (dec_head _ _)
  have t3 : readToken (dec g.width ++ (g.sep1 ++ (dec g.height ++ tail))) = (dec g.width, g.sep1 ++ (dec g.height ++ tail)) := by
    have := readToken_append [] (dec g.width) (g.sep1 ++ (dec g.height ++ tail)) (by simp) (dec_ne_nil _) (dec_not_space _)
      (head?_append_ws h.sep1)
    simpa using this
  have t4 : readToken (g.sep1 ++ (dec g.height ++ tail)) = (dec g.height, tail) :=
    readToken_append _ _ _ h.sep1.2 (dec_ne_nil _) (dec_not_space _) htail
  have sw : stoul (dec g.width) = .ok g.width := stoul_dec _ (by have := h.width; unfold sizeMax; omega)
  have sh : stoul (dec g.height) = .ok g.height := stoul_dec _ (by have := h.height; unfold sizeMax; omega)
  have t5 : pnmMode p.format g.kind.magic (dec g.width) tail = .ok (g.kind.mode, 10 :: (g.pixels ++ more)) := by
    by_cases hk : g.kind = .pbm
    · have hw := h.whole hk
      have hu := hurf hk
      unfold pnmMode
      simp only [tail, hk, sw, if_true, hl]
      have : g.width % 8 = 0 := Nat.mod_eq_zero_of_dvd hw
      simp [PnmKind.magic, PnmKind.mode, this, hu, ascii]
    · have hmx := hmax hk
      have hrt : readToken tail = (g.kind.maxval, 10 :: (g.pixels ++ more)) := by
        simp only [tail]
        rw [if_neg hk, List.append_assoc, hl]
        apply readToken_append _ _ _ h.sep2.2 hmx.1 hmx.2
        intro b hb; simp at hb; subst hb; decide
      unfold pnmMode
      rw [hrt]
      revert hk
      cases g.kind <;> simp [PnmKind.magic, PnmKind.mode, PnmKind.maxval, ascii]
  unfold pnmHeader
  simp only [t1, t2, t3, t4, t5, sw, sh]
  rw [ignoreComments_newline _ hx]
  rfl

/-- The pictures, one after the other. -/
theorem readPnm_pages (pt : Nat → Nat → Nat) (gs : List PnmPage) (hne : gs ≠ [])
    (h : ∀ g ∈ gs, g.Wf ∧ g.last = 10 ∧ g.pixels.head? ≠ some 35) (page : Nat) (p : Params)
    (hurf : ∀ g ∈ gs, g.kind = .pbm → p.format ≠ .URF) :
    ∃ pages, readPnm pt p page (gs.map PnmPage.bytes).flatten = (pages, .done) ∧
      pages.map (fun x => x.2.1) = (List.range gs.length).map (page + ·) ∧
      pages.map (fun x => x.2.2) = gs.map PnmPage.pixels ∧
      pages.map (fun x => x.1) = gs.map (PnmPage.params pt p) := by
  induction gs generalizing page p with
  | nil => exact absurd rfl hne
  | cons g gs ih =>
    obtain ⟨hwf, hl, hx⟩ := h g (by simp)
    have hmagic : ∀ (g : PnmPage), g.bytes.head? = some 80 := by
      intro g; simp only [PnmPage.bytes]; cases g.kind <;> rfl
    have hpix : (g.pixels ++ (gs.map PnmPage.bytes).flatten).head? ≠ some 35 := by
      cases hp : g.pixels with
      | cons a as => rw [hp] at hx; simpa using hx
      | nil =>
        cases gs with
        | nil => simp
        | cons g' gs' =>
          have := hmagic g'
          cases hb : g'.bytes with
          | nil => rw [hb] at this; simp at this
          | cons a as =>
            rw [hb] at this
            simp at this
            simp [hb, this]
    have hh := pnmHeader_bytes pt p g (gs.map PnmPage.bytes).flatten hwf hl hpix (hurf g (by simp))
    have hrow : (g.params pt p).widthBytes = .ok (rowBytes g.kind.mode g.width) := widthBytes_eq _
    have hsz := hwf.size
    have hsize : (g.params pt p).heightPx * rowBytes g.kind.mode g.width = g.pixels.length := by
      rw [hsz]; rfl
    have step : readPnm pt p page (g.bytes ++ (gs.map PnmPage.bytes).flatten) =
        if (gs.map PnmPage.bytes).flatten = [] then ([(g.params pt p, page, g.pixels)], .done)
        else
          let r := readPnm pt (g.params pt p) (page + 1) (gs.map PnmPage.bytes).flatten
          ((g.params pt p, page, g.pixels) :: r.1, r.2) := by
      conv => lhs; unfold readPnm
      split
      · rename_i e he; rw [hh] at he; cases he
      · rename_i q s1 he
        rw [hh] at he
        cases he
        rw [hrow]
        simp only [hsize]
        rw [if_neg (by simp)]
        simp
    simp only [List.map_cons, List.flatten_cons]
    rw [step]
    cases gs with
    | nil => exact ⟨[(g.params pt p, page, g.pixels)], by simp, by simp, by simp, by simp⟩
    | cons g' gs' =>
      have hnil : ((g' :: gs').map PnmPage.bytes).flatten ≠ [] := by
        intro hc
        have := hmagic g'
        simp at hc
        rw [hc.1] at this; simp at this
      rw [if_neg hnil]
      obtain ⟨pages, h1, h2, h3, h4⟩ := ih (by simp) (fun g hg => h g (by simp [hg])) (page + 1) (g.params pt p)
        (fun g hg => hurf g (by simp [hg]))
      have hpp : ∀ x : PnmPage, PnmPage.params pt (g.params pt p) x = PnmPage.params pt p x := fun x => rfl
      refine ⟨(g.params pt p, page, g.pixels) :: pages, ?_, ?_, ?_, ?_⟩
      · simp only [h1]
      · rw [List.map_cons, h2]
        rw [show (g :: g' :: gs').length = (g' :: gs').length + 1 from rfl, List.range_succ_eq_map]
        simp [Nat.add_assoc, Nat.add_comm 1]
      · simp only [List.map_cons] at h3 ⊢; rw [h3]
      · rw [List.map_cons, h4]
        simp [hpp]

end Verif.Raster
