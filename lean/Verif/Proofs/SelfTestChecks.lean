/-
Every functional with reference data is evaluated numerically, with two derivatives, at its reference point.
-/
import Verif.Proofs.SelfTestNum

namespace XCFun.Num
open XCFun Spec

reify Fun.slaterx Fun.vwn5c Fun.pbec Fun.beckex Fun.beckexcorr Fun.lda_erfx Fun.ldaerfc Fun.lypc Fun.ktx Fun.tfk Fun.pw91x Fun.pw92c Fun.m05x Fun.m05x2x Fun.m06x2x Fun.m06lx Fun.m06hfx Fun.m06c Fun.tpssc Fun.tpssx Fun.scanc Fun.scanx Fun.rscanc Fun.rscanx Fun.rppscanc Fun.rppscanx Fun.r2scanc Fun.r2scanx Fun.r4scanc Fun.r4scanx Fun.pz81c Fun.p86c Fun.pw91c

theorem check_slaterx : check 0 2 2 Fun.slaterx.code = true := by decide +kernel
theorem check_vwn5c : check 3 2 2 Fun.vwn5c.code = true := by decide +kernel
theorem check_pbec : check 4 5 2 Fun.pbec.code = true := by decide +kernel
theorem check_beckex : check 6 5 2 Fun.beckex.code = true := by decide +kernel
theorem check_beckexcorr : check 7 5 2 Fun.beckexcorr.code = true := by decide +kernel
theorem check_lda_erfx : check 13 2 2 Fun.lda_erfx.code = true := by decide +kernel
theorem check_ldaerfc : check 14 2 2 Fun.ldaerfc.code = true := by decide +kernel
theorem check_lypc : check 16 5 2 Fun.lypc.code = true := by decide +kernel
theorem check_ktx : check 23 5 2 Fun.ktx.code = true := by decide +kernel
theorem check_tfk : check 24 2 1 Fun.tfk.code = true := by decide +kernel
theorem check_pw91x : check 26 5 2 Fun.pw91x.code = true := by decide +kernel
theorem check_pw92c : check 28 2 2 Fun.pw92c.code = true := by decide +kernel
theorem check_m05x : check 29 7 1 Fun.m05x.code = true := by decide +kernel
theorem check_m05x2x : check 30 7 1 Fun.m05x2x.code = true := by decide +kernel
theorem check_m06x2x : check 32 7 1 Fun.m06x2x.code = true := by decide +kernel
theorem check_m06lx : check 33 7 1 Fun.m06lx.code = true := by decide +kernel
theorem check_m06hfx : check 34 7 1 Fun.m06hfx.code = true := by decide +kernel
theorem check_m06c : check 37 7 1 Fun.m06c.code = true := by decide +kernel
theorem check_tpssc : check 41 7 1 Fun.tpssc.code = true := by decide +kernel
theorem check_tpssx : check 42 7 1 Fun.tpssx.code = true := by decide +kernel
theorem check_scanc : check 45 7 1 Fun.scanc.code = true := by decide +kernel
theorem check_scanx : check 46 7 1 Fun.scanx.code = true := by decide +kernel
theorem check_rscanc : check 47 7 1 Fun.rscanc.code = true := by decide +kernel
theorem check_rscanx : check 48 7 1 Fun.rscanx.code = true := by decide +kernel
theorem check_rppscanc : check 49 7 1 Fun.rppscanc.code = true := by decide +kernel
theorem check_rppscanx : check 50 7 1 Fun.rppscanx.code = true := by decide +kernel
theorem check_r2scanc : check 51 7 1 Fun.r2scanc.code = true := by decide +kernel
theorem check_r2scanx : check 52 7 1 Fun.r2scanx.code = true := by decide +kernel
theorem check_r4scanc : check 53 7 1 Fun.r4scanc.code = true := by decide +kernel
theorem check_r4scanx : check 54 7 1 Fun.r4scanx.code = true := by decide +kernel
theorem check_pz81c : check 55 2 2 Fun.pz81c.code = true := by decide +kernel
theorem check_p86c : check 56 5 2 Fun.p86c.code = true := by decide +kernel
theorem check_pw91c : check 77 5 2 Fun.pw91c.code = true := by decide +kernel

/-- A functional whose code has passed the check. -/
def Checked (t : Tested) : Prop := Known t.vars ∧ ∃ c : IE Field, Fun.energy t.id = some c.den ∧ check t.id t.vars.len t.order c = true

theorem checked_intro {t : Tested} (hv : Known t.vars) {e : Expr Field} {c : IE Field} (he : Fun.energy t.id = some e) (hc : c.den = e)
    (h : check t.id t.vars.len t.order c = true) : Checked t := ⟨hv, c, by rw [he, hc], h⟩

theorem all_checked : ∀ t ∈ tested, Checked t := by
  unfold tested
  refine List.forall_mem_cons.2 ⟨?_, List.forall_mem_cons.2 ⟨?_, List.forall_mem_cons.2 ⟨?_, List.forall_mem_cons.2 ⟨?_, List.forall_mem_cons.2 ⟨?_, List.forall_mem_cons.2 ⟨?_, List.forall_mem_cons.2 ⟨?_, List.forall_mem_cons.2 ⟨?_, List.forall_mem_cons.2 ⟨?_, List.forall_mem_cons.2 ⟨?_, List.forall_mem_cons.2 ⟨?_, List.forall_mem_cons.2 ⟨?_, List.forall_mem_cons.2 ⟨?_, List.forall_mem_cons.2 ⟨?_, List.forall_mem_cons.2 ⟨?_, List.forall_mem_cons.2 ⟨?_, List.forall_mem_cons.2 ⟨?_, List.forall_mem_cons.2 ⟨?_, List.forall_mem_cons.2 ⟨?_, List.forall_mem_cons.2 ⟨?_, List.forall_mem_cons.2 ⟨?_, List.forall_mem_cons.2 ⟨?_, List.forall_mem_cons.2 ⟨?_, List.forall_mem_cons.2 ⟨?_, List.forall_mem_cons.2 ⟨?_, List.forall_mem_cons.2 ⟨?_, List.forall_mem_cons.2 ⟨?_, List.forall_mem_cons.2 ⟨?_, List.forall_mem_cons.2 ⟨?_, List.forall_mem_cons.2 ⟨?_, List.forall_mem_cons.2 ⟨?_, List.forall_mem_cons.2 ⟨?_, List.forall_mem_cons.2 ⟨?_, fun _ h => absurd h List.not_mem_nil⟩⟩⟩⟩⟩⟩⟩⟩⟩⟩⟩⟩⟩⟩⟩⟩⟩⟩⟩⟩⟩⟩⟩⟩⟩⟩⟩⟩⟩⟩⟩⟩⟩
  · exact checked_intro (Or.inl rfl) rfl Fun.slaterx.code_den check_slaterx
  · exact checked_intro (Or.inl rfl) rfl Fun.vwn5c.code_den check_vwn5c
  · exact checked_intro (Or.inr (Or.inl rfl)) rfl Fun.pbec.code_den check_pbec
  · exact checked_intro (Or.inr (Or.inl rfl)) rfl Fun.beckex.code_den check_beckex
  · exact checked_intro (Or.inr (Or.inl rfl)) rfl Fun.beckexcorr.code_den check_beckexcorr
  · exact checked_intro (Or.inl rfl) rfl Fun.lda_erfx.code_den check_lda_erfx
  · exact checked_intro (Or.inl rfl) rfl Fun.ldaerfc.code_den check_ldaerfc
  · exact checked_intro (Or.inr (Or.inl rfl)) rfl Fun.lypc.code_den check_lypc
  · exact checked_intro (Or.inr (Or.inl rfl)) rfl Fun.ktx.code_den check_ktx
  · exact checked_intro (Or.inl rfl) rfl Fun.tfk.code_den check_tfk
  · exact checked_intro (Or.inr (Or.inl rfl)) rfl Fun.pw91x.code_den check_pw91x
  · exact checked_intro (Or.inl rfl) rfl Fun.pw92c.code_den check_pw92c
  · exact checked_intro (Or.inr (Or.inr rfl)) rfl Fun.m05x.code_den check_m05x
  · exact checked_intro (Or.inr (Or.inr rfl)) rfl Fun.m05x2x.code_den check_m05x2x
  · exact checked_intro (Or.inr (Or.inr rfl)) rfl Fun.m06x2x.code_den check_m06x2x
  · exact checked_intro (Or.inr (Or.inr rfl)) rfl Fun.m06lx.code_den check_m06lx
  · exact checked_intro (Or.inr (Or.inr rfl)) rfl Fun.m06hfx.code_den check_m06hfx
  · exact checked_intro (Or.inr (Or.inr rfl)) rfl Fun.m06c.code_den check_m06c
  · exact checked_intro (Or.inr (Or.inr rfl)) rfl Fun.tpssc.code_den check_tpssc
  · exact checked_intro (Or.inr (Or.inr rfl)) rfl Fun.tpssx.code_den check_tpssx
  · exact checked_intro (Or.inr (Or.inr rfl)) rfl Fun.scanc.code_den check_scanc
  · exact checked_intro (Or.inr (Or.inr rfl)) rfl Fun.scanx.code_den check_scanx
  · exact checked_intro (Or.inr (Or.inr rfl)) rfl Fun.rscanc.code_den check_rscanc
  · exact checked_intro (Or.inr (Or.inr rfl)) rfl Fun.rscanx.code_den check_rscanx
  · exact checked_intro (Or.inr (Or.inr rfl)) rfl Fun.rppscanc.code_den check_rppscanc
  · exact checked_intro (Or.inr (Or.inr rfl)) rfl Fun.rppscanx.code_den check_rppscanx
  · exact checked_intro (Or.inr (Or.inr rfl)) rfl Fun.r2scanc.code_den check_r2scanc
  · exact checked_intro (Or.inr (Or.inr rfl)) rfl Fun.r2scanx.code_den check_r2scanx
  · exact checked_intro (Or.inr (Or.inr rfl)) rfl Fun.r4scanc.code_den check_r4scanc
  · exact checked_intro (Or.inr (Or.inr rfl)) rfl Fun.r4scanx.code_den check_r4scanx
  · exact checked_intro (Or.inl rfl) rfl Fun.pz81c.code_den check_pz81c
  · exact checked_intro (Or.inr (Or.inl rfl)) rfl Fun.p86c.code_den check_p86c
  · exact checked_intro (Or.inr (Or.inl rfl)) rfl Fun.pw91c.code_den check_pw91c

end XCFun.Num
