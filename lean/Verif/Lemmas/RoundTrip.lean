import Verif.Spec.RoundTrip
import Verif.Lemmas.Laws
namespace Pyof
open Spec

theorem Spec.Enc.roundTrips {c f} (he : Enc c f) (hd : Dec c f false) : RoundTrips c f := by
  intro v d b hv ho hb pre post hne
  obtain ⟨u, h1, h2, _⟩ := hd.unpack d b pre post ((he.pack v d hv b).mp hb) ho (by simp) hne
  exact ⟨u, h1, h2⟩

theorem Spec.Enc.roundTripsLast {c f t} (he : Enc c f) (hd : Dec c f t) : RoundTripsLast c f := by
  intro v d b hv ho hb pre hne
  obtain ⟨u, h1, h2, _⟩ := hd.unpack d b pre [] ((he.pack v d hv b).mp hb) ho (by simp) (by simpa using hne)
  exact ⟨u, by simpa using h1, h2⟩

end Pyof
