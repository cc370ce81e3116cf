import Verif.Model.Elo
import Verif.Model.Dwz
import Verif.Model.Fifa
import Verif.Model.Ingo
import Verif.Model.Uscf
import Verif.Model.Glicko
import Verif.Model.Glicko2
import Verif.Model.GlickoBoost
import Verif.Model.Sticko
import Verif.Model.WengLin
import Verif.Model.TrueSkill
/-
The `From` conversions between the rating types that need both modules in scope.
(The conversions *from* `EloRating` are next to the target types.)
-/
namespace Skillratings
variable {F : Type} [Flt F]

open Elo Dwz Fifa Ingo Uscf Glicko Glicko2 GlickoBoost Sticko WengLin TrueSkill

/-- `impl From<IngoRating> for EloRating` — src/elo.rs:99-105. -/
def Elo.EloRating.ofIngo (i : IngoRating F) : EloRating F :=
  { rating := Flt.mulAdd 8.0 (-i.rating) 2840.0 }

/-- `impl From<DWZRating> for EloRating` — src/elo.rs:107-111. -/
def Elo.EloRating.ofDwz (d : DWZRating F) : EloRating F := { rating := d.rating }

/-- `impl From<USCFRating> for EloRating` — src/elo.rs:113-125. -/
def Elo.EloRating.ofUscf (u : USCFRating F) : EloRating F :=
  if (2060.0 : F) <? u.rating then { rating := (u.rating - 180.0) / 0.94 }
  else { rating := (u.rating - 20.0) / 1.02 }

/-- `impl From<FifaRating> for EloRating` — src/elo.rs:127-131. -/
def Elo.EloRating.ofFifa (f : FifaRating F) : EloRating F := { rating := f.rating }

/-- `impl From<Glicko2Rating> for GlickoRating` — src/glicko.rs:116-123. -/
def Glicko.GlickoRating.ofGlicko2 (g : Glicko2Rating F) : GlickoRating F :=
  { rating := g.rating, deviation := g.deviation }

/-- `impl From<GlickoBoostRating> for GlickoRating` — src/glicko.rs:125-132. -/
def Glicko.GlickoRating.ofGlickoBoost (g : GlickoBoostRating F) : GlickoRating F :=
  { rating := g.rating, deviation := g.deviation }

/-- `impl From<StickoRating> for GlickoRating` — src/glicko.rs:134-141. -/
def Glicko.GlickoRating.ofSticko (s : StickoRating F) : GlickoRating F :=
  { rating := s.rating, deviation := s.deviation }

/-- `impl From<GlickoRating> for Glicko2Rating` — src/glicko2.rs:127-135. -/
def Glicko2.Glicko2Rating.ofGlicko (g : GlickoRating F) : Glicko2Rating F :=
  { Glicko2Rating.new with rating := g.rating, deviation := g.deviation }

/-- `impl From<GlickoBoostRating> for Glicko2Rating` — src/glicko2.rs:137-145. -/
def Glicko2.Glicko2Rating.ofGlickoBoost (g : GlickoBoostRating F) : Glicko2Rating F :=
  { Glicko2Rating.new with rating := g.rating, deviation := g.deviation }

/-- `impl From<StickoRating> for Glicko2Rating` — src/glicko2.rs:147-155. -/
def Glicko2.Glicko2Rating.ofSticko (s : StickoRating F) : Glicko2Rating F :=
  { Glicko2Rating.new with rating := s.rating, deviation := s.deviation }

/-- `impl From<GlickoRating> for GlickoBoostRating` — src/glicko_boost.rs:138-145. -/
def GlickoBoost.GlickoBoostRating.ofGlicko (g : GlickoRating F) : GlickoBoostRating F :=
  { rating := g.rating, deviation := g.deviation }

/-- `impl From<Glicko2Rating> for GlickoBoostRating` — src/glicko_boost.rs:147-154. -/
def GlickoBoost.GlickoBoostRating.ofGlicko2 (g : Glicko2Rating F) : GlickoBoostRating F :=
  { rating := g.rating, deviation := g.deviation }

/-- `impl From<StickoRating> for GlickoBoostRating` — src/glicko_boost.rs:156-163. -/
def GlickoBoost.GlickoBoostRating.ofSticko (s : StickoRating F) : GlickoBoostRating F :=
  { rating := s.rating, deviation := s.deviation }

/-- `impl From<GlickoRating> for StickoRating` — src/sticko.rs:135-142. -/
def Sticko.StickoRating.ofGlicko (g : GlickoRating F) : StickoRating F :=
  { rating := g.rating, deviation := g.deviation }

/-- `impl From<Glicko2Rating> for StickoRating` — src/sticko.rs:144-151. -/
def Sticko.StickoRating.ofGlicko2 (g : Glicko2Rating F) : StickoRating F :=
  { rating := g.rating, deviation := g.deviation }

/-- `impl From<GlickoBoostRating> for StickoRating` — src/sticko.rs:153-160. -/
def Sticko.StickoRating.ofGlickoBoost (g : GlickoBoostRating F) : StickoRating F :=
  { rating := g.rating, deviation := g.deviation }

/-- `impl From<TrueSkillRating> for WengLinRating` — src/weng_lin.rs:130-137. -/
def WengLin.WengLinRating.ofTrueSkill (t : TrueSkillRating F) : WengLinRating F :=
  { rating := t.rating, uncertainty := t.uncertainty }

/-- `impl From<WengLinRating> for TrueSkillRating` — src/trueskill/mod.rs:161-168. -/
def TrueSkill.TrueSkillRating.ofWengLin (w : WengLinRating F) : TrueSkillRating F :=
  { rating := w.rating, uncertainty := w.uncertainty }

end Skillratings
