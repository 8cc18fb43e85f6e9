import Verif.Spec.Ini

set_option autoImplicit false

/-!
# The shipped example

Generated by `tools/example.py` from `example/example.ini`.
-/

namespace QED

/-- The lines of `example/example.ini` (lines 1-59). -/
def exampleLines : List (List Char) :=
  ["[General]".toList,
   "units = SI".toList,
   "time_step = 0.01e-15".toList,
   "time_end = 100e-15".toList,
   "file_name = example.h5".toList,
   "".toList,
   "[Field]".toList,
   "# Field can be static/plane/gaussian/focusing".toList,
   "field_type = gaussian".toList,
   "e_max = 2.00e+14".toList,
   "# This is time for intensity to fall by 1/e^2".toList,
   "duration = 10.0e-15".toList,
   "waist = 5.0e-6".toList,
   "wavelength = 0.8e-6".toList,
   "start = [0 0 10.0e-6]".toList,
   "focus = [0 0 0]".toList,
   "".toList,
   "[Particle1]".toList,
   "# Number of particles per MPI process if using MPI".toList,
   "number_particles = 100".toList,
   "name = electron".toList,
   "particle_type = electron".toList,
   "energy_distribution = gaussian".toList,
   "position = [0 0 -10e-6]".toList,
   "direction = [0 0 1]".toList,
   "energy_mean = 8.176e-12".toList,
   "energy_sig = 8.176e-13".toList,
   "duration = 5.0e-15".toList,
   "radius = 1.0e-6".toList,
   "divergence = 0.0".toList,
   "# Outputs particle data table at the start and end".toList,
   "# format: id/energy/px/py/pz/x/y/z".toList,
   "output = true".toList,
   "".toList,
   "[Physics]".toList,
   "radiation_model = Classical".toList,
   "sample_fraction = 0.1".toList,
   "pair_production = false".toList,
   "".toList,
   "# Make sure histograms are in time order".toList,
   "# Histoghram bins use code natural units (energy = me c^2, momentum = me c, length = me / e Ec)".toList,
   "# I will change this to SI at some point".toList,
   "[Histogram1]".toList,
   "name = start".toList,
   "particle = Electron".toList,
   "type = energy".toList,
   "time = 0e-15".toList,
   "bins = 400".toList,
   "min_bin = 0".toList,
   "max_bin = 5000".toList,
   "".toList,
   "[Histogram2]".toList,
   "name = end".toList,
   "particle = Electron".toList,
   "type = energy".toList,
   "time = 100e-15".toList,
   "bins = 400".toList,
   "min_bin = 0".toList,
   "max_bin = 5000".toList]

end QED
