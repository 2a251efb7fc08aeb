# DESIGN — a Lean 4 model of vspec-vsm

## 1. What is modelled

`/repo/vspec_vsm` is numerical Python (numpy + astropy). Every function that carries logic is transcribed,
branch by branch, into a total (noncomputable, because of `ℝ`) Lean function. Modules:

| Lean module | models |
|---|---|
| `Verif/Fl.lean` | IEEE-style scalars: `nan`, `±inf`, finite reals (exact arithmetic, no signed zero) |
| `Verif/Np.lean` | the numpy/Python primitives used: `linspace`, `trapz`, `percentile`, `round` (half-even), `cumsum`, dict, exceptions |
| `Verif/Model/Grid.lean` | `coordinate_grid.py` |
| `Verif/Model/Helpers.lean` | `helpers.py` |
| `Verif/Model/Spots.lean` | `spots.py` |
| `Verif/Model/Faculae.lean` | `faculae.py` |
| `Verif/Model/Flares.lean` | `xoflares.py`, `flares.py` |
| `Verif/Model/Granules.lean` | `granules.py` (kernel formula, clipping; the GP sampler is an oracle) |
| `Verif/Model/GranSeed.lean` | the Gaussian process sample as mean plus Cholesky factor times draws made from the seed |
| `Verif/Model/Plot.lean` | `star.py`: the data that `plot_surface` hands to matplotlib |
| `Verif/Model/Star.lean` | `star.py` (everything except plotting; includes the low-resolution warning of `get_transit_mask`) |
| `Verif/Model/Aliasing.lean` | aging loops over a heap of shared spot objects |
| `Verif/Model/Settings.lean` | what constructors check |
| `Verif/Model/Broadcast.lean` | the surface map and the report with numpy's broadcasting of arrays of different grids |
| `Verif/Model/Single.lean` | the surface map and the report with the map stored in single precision |
| `Verif/Model/Float.lean` | angles, distances and masks of spots and faculae computed in double precision; coordinates, areas and sums of the report in double precision |
| `Verif/Model/UnitsFlares.lean` | quantities with units in the flare code |
| `Verif/Model/World.lean` | whole programs with several stars over a heap of spots, faculae, collections and generators |
| `Verif/Model/Units.lean` | quantities with units: what spots, faculae and generators do with astropy quantities |
| `Verif/Model/FloatAge.lean` | aging of spots and faculae in double precision |
| `Verif/Model/FloatFlare.lean` | peak area and area curve of a flare in double precision |
| `Verif/Model/FloatEnergy.lean` | random energies, expected numbers and places of flares in double precision |
| `Verif/Model/FloatDraws.lean` | generated spots and faculae in double precision |
| `Verif/Model/FloatSky.lean` | place and size of the planet, sizes of the pixels and the branches of `get_transit_mask` in double precision (star.py:428-494) |
| `Verif/Model/FloatMask.lean` | which pixels are behind the planet on the computed grid (star.py:454-492); place and size of the planet, sizes of the pixels and Gaussian integrals are arguments |
| `Verif/Model/FloatPeaks.lean` | peak times, widths and temperatures of generated flares in double precision |
| `Verif/Model/Examples.lean` | the functions that the scripts under `examples/` define |
| `Verif/Model/FloatCircle.lean` | overlap of two circles and areas of a facula in double precision |
| `Verif/Model/Random.lean` | random number generators as objects, programs with several stars, default arguments `rng` |
| `Verif/Model/FloatTransit.lean` | `proj_ortho` and the tests of the transit mask in double precision |
| `Verif/Model/FloatAll.lean` | the whole report of a star with spots in double precision, the map in single precision |
| `Verif/Model/UnitsObs.lean` | `calc_coverage` and `get_transit_mask` for arguments with units or plain numbers |
| `Verif/Model/UnitsStar.lean` | the report of a star whose temperature is given in another unit than kelvin |
| `Verif/Spec.lean` | small independent specifications (unit vectors, great-circle angle, disks, orthographic projection, …) |
| `Verif/Lemmas/*.lean` | helper lemmas |
| `Verif/Props/*.lean` | the property theorems, one section per property, with witnesses |

### Modelling conventions (the trusted reading of the code)

* **Numbers.** Python floats are modelled either as `ℝ` (where no operation of the function can leave the
  reals for real input) or as `Fl` (`nan | ninf | fin x | pinf`) wherever the code divides, takes `log`, `sqrt`,
  `arccos`, or handles `inf`/`nan` on purpose. `Fl` follows IEEE rules for special values; finite arithmetic is
  exact, i.e. rounding error, overflow and signed zeros are **not** modelled. Storage of the surface map in float32 is
  modelled separately in `Verif/Model/Single.lean` (C143 compares it with the exact model), and so is the rounding of the geometry
  and of the report in double precision in `Verif/Model/Float.lean` (C144, C145; sums are taken in an arbitrary order; the library functions sin, cos, arcsin, arccos are arguments, assumed to have
  a relative error of at most 2^-52; overflow and subnormal numbers are left out).
* **Units.** astropy quantities are modelled by their value in one fixed unit per dimension
  (angle: radian, time: day, area/length/temperature/energy: any fixed unit). astropy's conversions are exact
  scalings. For spots, faculae and their generators `Model/Units.lean` models the quantities themselves (number, scale,
  dimension; sums and comparisons convert or raise `UnitConversionError`), `Model/UnitsFlares.lean` those of the flare code, and
  C125 – C127 and C139 tie the two together. The unit error of `FlareGenerator.pdf` is modelled with explicit dimension exponents.
* **Exceptions** are values: `Except PyErr α`. **Warnings** are left out of most model files; `Model/Warnings.lean` adds them, and C171
  proves that they change no value.
* **Randomness.** The numpy generator is an oracle: every draw is an argument of the model function, and theorems
  quantify over all draws (in the documented range of the numpy sampler where needed).
* **Arrays** are lists or functions on an index type. Elementwise numpy operations become pointwise functions.
* **Mutation** becomes a returned new value. Object identity (aliasing) is modelled separately, with explicit
  heaps: `Model/Aliasing.lean` for a feature listed twice, `Model/World.lean` for whole programs with several stars. C135
  proves that the value model is right for programs that hand no object to two owners; C136 and C137 are about the others.
* **Not modelled**: what matplotlib and cartopy do with the data of `plot_surface`, `__str__`, numpy's own warnings, docstrings, the jax/tinygp sampler (oracle), floating-point
  rounding outside of C143 – C145, C153, C156, C159, C160, C163 – C166, C175, C178 – C181. Arrays of different grids raise in most model files; numpy's broadcasting of
  different shapes is modelled in `Model/Broadcast.lean` and used in C136, C137 and C148.

## 2. Trusted base

* Lean 4.33.0 kernel; Mathlib (imported module by module) as checked by that kernel.
* Axioms: only `propext`, `Classical.choice`, `Quot.sound`, for every theorem.
* The faithfulness of the model to `/repo` as read (citations on each definition), under the conventions above.

* Known differences between model and code, none of them used by a theorem's hypotheses:
  `displaySpiral` of a grid with 0 points (NaN in numpy, 0 in the model); `rng.poisson` raising for means above
  about 9.2e18; int16 storage of index maps (float32 storage of temperatures: see C143); the `isinstance` checks at the start of
  `get_coverage`-like methods.

## 3. Findings

A property that is false of the code keeps its full statement in `properties.jsonl`, gets the status `partial`, the
strongest true theorem with suffix `_partial` and a theorem `…_counterexample` that exhibits the failure:

* **C06** — The code violates the property: RectangularGrid == SpiralGrid raises TypeError while the reverse comparison answers False. The partial theorem covers everything else.
* **C07** — The code violates the property: the axes always have the grid's own sizes, not the requested ones.
* **C107** — False of the code: on a rectangular grid of another size than 500 x 1000 the default call raises TypeError, and on a spiral grid the opacity handed to imshow is one-dimensional. Proved: on the 500 x 1000 grid everything is handed over, on spiral grids mesh and black cells are.
* **C111** — False of the code: the area-time is coverage * 4 pi R^2 * t times (1 + e^-2)/2 * exp((ln 10 (2 sigma_r + sigma_life))^2/2), which is proved exactly; without scatter it is too small by the factor 0.57, because mean_area is pi r_0 times the time average of the radius instead of pi times that of its square.
* **C112** — False of the code for the widths: dist_fwhm_mean is their median, their mean is dist_fwhm_mean * exp((ln 10 sigma)^2/2). Proved: mean and variance of the temperatures, median and mean of the widths.
* **C117** — False of the code: dividing the angular radius by the square root of the ratio makes the umbra larger than its share. Proved: its area is at least area/ratio and at most that times 1/(1 - theta^2/24)^2 <= 3; a spot over half of the star with ratio 4 has a larger umbra.
* **C118** — False of the code: cutting off at 0 and 1 shifts the average away from mean_coverage unless it is 1/2 (proved: larger below a half, smaller above), and the variance is amplitude/(sqrt(2) period). Proved: average and root mean square deviation are within the standard deviation of the process; exact for mean_coverage 1/2.
* **C119** — False of the code for the period: the covariance vanishes exactly at the lags sqrt(2) pi period (k + 3/4) and is positive for lags up to three periods. Proved: these zeros and the exponential decay.
* **C12** — The code violates the property at the poles: lon0 is ignored there. Proved for every centre that is not a pole and for poles with lon0 = 0 mod 360 degrees.
* **C127** — False of the code for the default generator: SpotGenerator.off has a growth_rate in days, so whatever its generate_mature_spots returns for a positive coverage, aging raises UnitConversionError. Proved: aging works for every generator whose attributes have the right dimensions, in whatever units.
* **C128** — False of the code when two temperatures differ by less than 0.01 of the unit: the keys are printed with two decimals, so in kK temperatures less than 10 K apart overwrite each other, and a star with granules 4 K cooler reports fractions that add up to 0 in kK and to 1 in K. Proved for temperatures further apart.
* **C140** — False of the code: the mean width of FlareGenerator.off() is in ergs, so with a finite minimal energy every call that has a flare to draw raises UnitConversionError (C140_counterexample). Proved: off() makes no flares, and works if the mean width is also set.
* **C143** — False of the code: a temperature that single precision changes by name makes every report raise KeyError (C143_counterexample), one that it changes at all makes every report with a facula raise TypeError (C143_counterexample_faculae). Proved for separated temperatures in whole hundredths or 256ths of a kelvin.
* **C144** — False of the code: rounding can lift the cosine of the angle of a point to itself above 1, then the angle is NaN and a star with a facula at the centre of the disk has no map (C144_counterexample). Proved: the error bounds away from there, and pixels 1e-6 away from the edges are attributed exactly.
* **C164** — A number close to the true share for every r <= 1 is false of the code: calc_circ_fraction_inside_unit_circle(1.1, 0, 0.1) is NaN in double precision (C164_counterexample). Proved for r = 1, for circles that cross clearly and for disks clearly inside or outside; the band of circles that nearly touch is what is missing. Overflow and underflow are not modelled; np.arccos, np.cos and np.tan are assumed to be accurate to 2^-52, squares to be correctly rounded.
* **C19** — The code violates the property when an umbra is hotter than its penumbra: the penumbra mask contains the umbra and the order of the two overlays matters. Proved whenever every umbra is at most as hot as its penumbra.
* **C20** — The code violates the property: in the decay phase the loss is compared with area_max instead of area_current, so the area of a single spot can become negative. Proved: all other clauses, and the full bounds for spots kept in a collection.
* **C25** — The code violates the property: mean_lifetime divides by growth_rate where the evolution uses log(1+growth_rate), and mean_area adds init_area/growth_rate instead of subtracting. The partial theorem gives both sides exactly.
* **C28** — The code violates the property: it adds pi*theta^2 per spot, which exceeds the true solid angle of the cap, so the spots can subtend less than requested; a NaN angular radius also ends the loop. The partial theorem proves the loop invariant for the angle the code counts.
* **C29** — The code violates the property: add_spot replaces the gridmaker of a spot but keeps its distance array, so a spot built on another grid makes Star.map raise ValueError. The partial theorem covers every history in which hand-added spots were measured on the star's grid; C66_unified supplies its hypothesis for every constructed star.
* **C36** — The code violates the property: temperatures that differ by less than 1 K may round to the same key and one entry is lost. Proved whenever the rounded temperatures differ.
* **C37** — The code violates the property: mean_area is the true time average multiplied by 2/(1+exp(-2)). The partial theorem states the exact relation.
* **C39** — The code violates the property: adding a facula with a rectangular grid to a collection with a spiral grid raises TypeError. The partial theorem characterises success and failure completely.
* **C49** — The code violates the property: a window shorter than twenty minutes is sampled with at most one point, so every flare contributes zero. The partial theorem covers all windows of at least twenty minutes.
* **C52** — The code violates the property: pdf always raises UnitConversionError because its value has the unit 1/erg. The partial theorem says the number computed before the conversion is the derivative of cdf.
* **C56** — The code violates the second clause: with zero mean and dteff != 0 the lookup params['amp'] raises KeyError. The first clause holds for every granulation.
* **C57** — Proved when any two different temperatures (map, photosphere, granulation) differ by more than 0.01 K: the sum is exactly 1, every entry is its share of the disk with the granulation fraction moved, no other entries. Refuted in general: temperatures within 0.01 K share a dict key and overwrite each other (sum 0 for granules 0.001 K cooler than the photosphere).
* **C59** — Proved: a finite result under the listed conditions. Refuted in general: KeyError when no photosphere pixel is left and granulation is on; ValueError in an eclipse of a planet larger than the star.
* **C65** — average_teff always raises (string keys), C65_counterexample. The arithmetic of its loop on numeric keys gives the fourth-power mean between the extreme temperatures.
* **C68** — The code violates the property for a collection holding one object twice: it is aged twice. The partial theorem covers all collections without repetition and says exactly how often an object is aged.
* **C69** — The code violates the second clause for stars hotter than 3900 K: clip_teff caps the wall at 3900 K while the photosphere is not clipped. The first clause holds for every star.
* **C74** — The code violates the full statement for every generator: when all unit exponential draws exceed their mean some flare peaks after the end; at the mean the last one peaks no earlier than the end. Proved: peaks lie between 0 and 3/2 x duration x largest draw.
* **C96** — False of the code: it divides by 2 pi instead of pi and treats the spot as a flat disk, so a spot at the disk centre gets about half of its share. Proved: the integral it does approximate, with error bound, and the upper bound theta^2/2.

Some proved properties needed a narrower quantifier than one would first write down. These are spelled out in
`properties.jsonl`; the main ones: C21 (spots inside a collection), C34/C35 (wall and floor temperatures that round to
different integers), C58/C60/C63/C85/C86/C93 (sub-observer latitude in [-90°, 90°], a grid with defined areas),
C64 (positive planet radius), C71 (n ≥ 5), C72 (windows of at least 20 minutes), C75 (oversample ≥ 2), C79 (observer
off the poles), C87/C99 (temperatures more than 0.01 K apart, so that dictionary keys do not collide), C92/C98
(nlat ≥ 3), C99 (nlat ≥ 4, nlon ≥ 3, no faculae).

## 4. Plan per property

* **C01 Rectangular grid layout** — model `linspace`, `meshgrid`; theorem on every entry.
* **C02 Grid areas are a partition of unity** — model `_area` with `Fl` division; prove each entry is finite, non-negative and the sum is 1. Degenerate grids (nlat <= 2, where exact arithmetic gives 0/0) are covered by a separate negative theorem.
* **C03 mu is the cosine of the angle from disk centre** — pointwise formula vs. inner product of unit vectors in EuclideanSpace ℝ (Fin 3).
* **C04 Spiral grid is an equal-area sampling** — formula for sin(lat); counting argument on an arithmetic progression.
* **C05 Resampling a spiral map is a weighted mean** — weights are positive exponentials; weighted mean bounds by induction over points.
* **C06 Grid equality decides same layout** — case analysis; the never-raises/symmetric part is false of the code (rect == spiral raises TypeError): negative theorem + partial.
* **C07 Rectangular display_grid returns consistent axes** — case analysis; the axis-length part is false when the request differs from the grid: negative theorem + partial.
* **C08 CoordinateGrid.new dispatches on the parameter type** — Python values as a sum type; case analysis.
* **C09 Angle between coordinates is great-circle distance** — arccos of the inner product; triangle inequality from the angle metric on the sphere.
* **C10 Spot and facula pixel distances are great-circle distances** — half-angle identities; uniqueness of the angle in [0,pi] with a given cosine.
* **C11 Orthographic projection radius and visibility** — branch by branch on the `Fl` model.
* **C12 Orthographic projection accuracy** — spherical trigonometry: cos C times sin a equals y; error of half-even rounding. False at the poles for lon0 != 0: negative theorem + partial.
* **C13 Circle fraction is total and bounded** — branch by branch on the `Fl` model; bounds through monotonicity of the lens area in the distance.
* **C14 Circle fraction is the true overlap area** — derivative of the lens formula for monotonicity; measure of the intersection by slicing.
* **C15 Temperature clipping** — case analysis.
* **C16 Temperature rounding** — floor/fract arithmetic.
* **C17 Spot angular radius encloses the spot area** — arccos domain in `Fl`, inverse of cos.
* **C18 Spot pixel membership** — pointwise.
* **C19 Spot map takes the coolest temperature** — fold invariant: pixel value = min over covering regions, when each umbra is no warmer than its penumbra; the general claim is false (negative theorem).
* **C20 Spot area stays within physical bounds** — invariant over step lists; non-negativity is false for a lone decaying spot (negative theorem); upper bound and monotonicity hold; non-negativity holds for spots in a collection.
* **C21 Spot collection evolution does not depend on the time step** — semigroup law of the aging map on live spots, lifted through the filter.
* **C22 Aging removes exactly the decayed spots** — filter characterisation.
* **C23 Spot lifetime** — closed form of the aging map for total time, then filter.
* **C24 Spot coverage is the area fraction of the union of spots** — map with infinite photosphere temperature marks exactly the union.
* **C25 Spot generator statistics agree with spot evolution** — both parts are false of the code (growth_rate vs log(1+growth_rate); sign of init_area): negative theorems, plus inequalities that do hold.
* **C26 Expected spot births balance the requested coverage** — algebra in `Fl`; static case uses inf lifetime.
* **C27 Generated spots are well formed** — draws as arguments.
* **C28 Mature spots reach the requested coverage** — loop over a list of draws; the code uses pi*theta^2 for the solid angle: exact statement proved for that measure, true solid angle falls short (negative theorem).
* **C29 Spots are always measured on the star's grid** — state machine over histories; the add_spot case with a foreign grid breaks it (negative theorem); partial for histories adding spots built on the star's grid.
* **C30 Projected spot fraction** — sign of the trapezoid sum.
* **C31 Facula radius stays within bounds** — invariant.
* **C32 Facula evolution does not depend on the time step** — semigroup law lifted through the filter.
* **C33 Facula lifetime is two lifetimes** — closed form + filter.
* **C34 Facula wall and floor share the projected area** — `Fl` model of effective_area; uses C13.
* **C35 Faculae brighten towards the limb** — uses monotonicity of C14.
* **C36 Wall and floor are reported separately** — false (rounding collisions): negative theorem + partial.
* **C37 Facula mean area agrees with facula evolution** — integral of the closed form; the code's formula differs: negative theorem with the exact value.
* **C38 Expected facula births balance the requested coverage** — algebra.
* **C39 Adding faculae puts them on the collection's grid** — false when a rectangular-grid facula meets a spiral collection: negative theorem + partial.
* **C40 Faculae overlay of the surface map** — fold over faculae.
* **C41 Wall pixel count reflects the wall fraction** — order statistics of np.percentile (linear interpolation).
* **C42 Flare light curve shape** — polynomial positivity and exponential bounds.
* **C43 Flare energy conservation** — fundamental theorem of calculus.
* **C44 Flare energy distribution** — rpow algebra.
* **C45 Flare frequency follows the energy distribution** — rpow algebra.
* **C46 Flare peak times** — list induction on cluster sizes.
* **C47 No contributing flare is dropped** — filter + support of the light curve.
* **C48 Visible flares are those on the near hemisphere** — filter + cosine sign.
* **C49 Active flares contribute time-area** — trapezoid sums; false for windows shorter than 20 minutes: negative theorem + partial.
* **C50 Light curves superpose** — sum over list.
* **C51 Disabled flares stay disabled** — `Fl` power of infinity; list lengths.
* **C52 Flare energy density** — pdf raises a unit error for every energy: negative theorem; the underlying number is the derivative (partial).
* **C53 Random coordinates lie on the sphere** — arcsin range; measure of the preimage interval.
* **C54 Granulation coverage is a fraction** — `Fl` clipping.
* **C55 Granulation kernel is a covariance function** — autocorrelation representation of the kernel as an integral of a square.
* **C56 Granulation can be switched off by its parameters** — false (KeyError on 'amp'): negative theorem + partial.
* **C57 Coverage fractions add to one** — sum over unique temperatures with dict semantics; needs that formatted keys do not collide (negative theorem when they do).
* **C58 Coverage fractions are fractions** — same dict model.
* **C59 calc_coverage always answers** — false (KeyError if the photosphere is fully covered): negative theorem + exact characterisation.
* **C60 Granulation only moves photosphere** — dict update lemmas.
* **C61 Some surface is always visible** — exhibit a visible pixel.
* **C62 Limb darkening mask** — quadratic inequalities.
* **C63 Transit mask** — `Fl` model with trapezoid of the Gaussian; bound by 1 through a discrete Gaussian sum estimate.
* **C64 Visible planet fraction** — uses C13/C14.
* **C65 Average temperature** — false (string keys): negative theorem, no execution returns a value.
* **C66 Star construction unifies grids** — case analysis over grids.
* **C67 A quiet star stays quiet** — state machine with off generators.
* **C68 Aging touches each feature once** — heap model; holds without aliasing, false with aliasing (negative theorem).
* **C69 Hot walls are hotter than cool floors on the map** — clip monotone; second half false for hot stars (negative theorem).
* **C70 Faculae overlay always answers** — case analysis of the overlay; the facula exactly on the limb is the excluded case and has its own theorem.
* **C71 Some surface is always visible on a spiral grid** — the golden-angle points near the equator: a point of every spherical band, then positivity of a sum.
* **C72 Flare time-area accuracy** — error of the trapezoid rule for a unimodal curve (`Lemmas/TrapzError`).
* **C73 Flares come in order of time** — sortedness of cumulative sums; closed form of the series (`series_eq`).
* **C74 Generated flares peak within the observation** — false: the clusters overshoot the end; negative theorem + bound.
* **C75 Exposure-averaged light curve** — mean over a symmetric list of instants.
* **C76 Flare integrals follow the last generated series** — state machine over histories of operations.
* **C77 Operations touch only what they should** — state machine, frame conditions for every operation.
* **C78 Stars stay well formed** — state machine, invariant.
* **C79 Rotational symmetry of calc_coverage** — re-indexing of the columns of the grid commutes with every stage of calc_coverage.
* **C80 Full turns of longitude do not matter** — periodicity of every stage.
* **C81 North-south mirror symmetry of calc_coverage** — row reversal of the grid.
* **C82 East-west mirror symmetry of calc_coverage** — column reversal of the grid.
* **C83 Scale invariance of calc_coverage** — homogeneity of every stage in `Fl`.
* **C84 Seen pole-on the sub-observer longitude is irrelevant** — projection at the poles ignores the longitude; mu does too.
* **C85 A bigger planet covers no less** — monotonicity of the mask in the radius, then of weighted sums.
* **C86 Without a transit nothing is covered** — mask is constant outside the transit.
* **C87 Adding spots only cools** — pointwise comparison of overlays, then of shares.
* **C88 The order of features does not matter** — permutation invariance of the fold.
* **C89 Mature spots: exactly as many as needed** — loop unrolling, first index that reaches the target.
* **C90 Mature spots are aged spots of the generator** — closed form of one loop step; potential argument for termination.
* **C91 Grid spacing** — arithmetic of linspace.
* **C92 Pixel areas are cell solid angles** — integral of cos over a cell.
* **C93 Low-resolution warning** — unfolding of the warning condition; lower bound of the pixel sizes.
* **C94 Facula index map** — fold over the faculae.
* **C95 Every temperature is accounted for** — invariant of the overlay folds; dictionary keys.
* **C96 Surface fraction is the covered share of the disk** — false: normalisation by 2 pi and flat spot; the integral that is approximated, with the error of the rule, is proved.
* **C97 Surface fraction laws** — dependence through the angular distance; monotone integrand.
* **C98 Coverage measured on a grid is accurate** — cells of the grid as a partition of the sphere; ring around the spot outline bounds the cells that are cut (`Lemmas/SolidAngle`, `Lemmas/CapSum`).
* **C99 Reported disk fractions are accurate** — same with limb darkening and the projection (Lipschitz in the great-circle distance), a measure on the sphere in longitude and latitude (`Lemmas/Quadrature`), rotation invariance for zonal functions.
* **C100 Covered fractions in a transit are accurate** — the orthographic projection is 1-Lipschitz and carries projected area to plane area (`Lemmas/Ortho`); the ring around the outline of the planet bounds the wrong part; mask facts from C63, projection error from C12.
* **C101 Transit depth** — C100 for one region, the whole sphere; change of variables from the near side of the sphere to the disk (`ortho_integral`); C14 for the area.
* **C102 Reported fractions of a star with faculae are accurate** — the argument of C99 and C100 for any region bounded by circles (`region_accuracy`); regions: a temperature outside all faculae, and the union of the faculae.
* **C103 Reported fractions are accurate on spiral grids** — the points of a spiral grid are cut into blocks of a Fibonacci number F of points; a block fills a zone between two parallels and, as 1/phi is within 1/F^2 of a fraction with denominator F, its points are near F equally spaced meridians: cells of area 4 pi/n (`Lemmas/SpiralCells`). The argument of C102 then holds for any grid with such a quadrature rule (`Quad`).
* **C104 Coverage of overlapping spots is accurate** — the quadrature rule for the indicator of a union of caps; the area of one cap by a zonal integral.
* **C105 Population after any history** — the two-step law for one feature (C21, C32) and induction over the history, tracking what each operation hands over.
* **C106 What plot_surface draws** — the call is unfolded into its steps; arrays are related to pixels by row and column; limb darkening from C62, mask from C63 and C64, resampling from C05.
* **C107 plot_surface with its default size** — C106 for the sizes; two concrete stars refute the full statement.
* **C108 Features are spread evenly over the sphere** — substitution sin(latitude) = 2u-1 turns the uniform square into the area measure of the sphere; a cap via the zonal integral.
* **C109 Flare rate by energy and region** — the count is a sum of indicators; Tonelli and independence give mean number times probability; energies by solving the quantile for u.
* **C110 Births on average** — the same with the Poisson mean of the number of births.
* **C111 Steady facula coverage** — C38 for the rate, the time integral of one facula from C32, the moment generating function of the normal law.
* **C112 Means of flare temperatures and widths** — C73 gives each flare's fields as functions of the draws; moments of the normal law.
* **C113 Mean time of the last flare** — the peak of the last flare is the sum of all waiting times; linearity of the mean and the sum bound of C74.
* **C114 Spiral grids have no holes** — a zonal hat function has positive integral and, by the accuracy of spiral sums (C103), a positive sum, so some point is in its support.
* **C115 Resampling of spiral maps for display is accurate** — the weights are at most exp(-36 n rho^2/(4 pi)) beyond 6 rho and one grid point within 3 rho carries a larger weight (C114); split the weighted mean.
* **C116 Flat radius of a spot** — half-angle formula for the area of a cap.
* **C117 Share of the umbra** — concavity of sin on [0, pi] and x - x^3/6 <= sin x; partial, the exact share is refuted.
* **C118 Mean and size of the granulation coverage** — cutting off is 1-Lipschitz; reflection of the normal law about its mean and about 1/2; partial, refuted for every mean but 1/2.
* **C119 Memory and period of the granulation** — closed form of the kernel and the zeros of cos; partial, refuted within three periods.
* **C120 Settled population of faculae** — population of a run as a sum over births (C105), mean of a random sum, Riemann sums of the life curve of a facula.
* **C121 Settled population of spots** — as C120, with the growth and decay curve of a spot and log-normal peak areas.
* **C122 Light left by randomly placed spots** — Fubini: at each point of the disk the chance to be uncovered is a product over the independent spots, by the share of a cap; the report by C99.
* **C123 Light of a settled star** — as C122 for the independent steps of the run of C121; the Poisson counts turn the product into an exponential.
* **C124 Area ratios of generated spots** — the first accepted batch of independent batches: geometric number of trials, law of the batch conditioned on acceptance; Chernoff bound for the normal tail.
* **C125 Units do not matter** — a separate model of quantities with units; a relational proof that every operation respects physical equality.
* **C126 Quantities with the right dimensions never fail** — run the methods on quantities in km, days and K, compare with the other model files, and transfer to other units by C125.
* **C127 Generated spots can be aged** — dimensions as an invariant of the loop and of aging; the default generator violates it.
* **C128 The report does not depend on the unit of temperature** — names are an injective renaming of temperatures.
* **C129 Number of mature spots** — Wald's identity for the first time the counted solid angle reaches the target; overshoot bounded by truncation.
* **C130 Mature spots of a star without a spot generator** — the attributes of the default generator through generate_mature_spots; coolest-temperature rule (C19).
* **C131 A star left alone becomes quiet again** — ends of life from the closed forms of ageing; the report of a star without features is unified from the granulation split.
* **C132 Energy set free by flares** — mean of a Poisson number of independent terms; Pareto mean by a power integral, infinite by non-integrability.
* **C133 Births do not depend on how the time is split up** — linearity of the expected numbers; convolution of Poisson distributions.
* **C134 Latitudes of the solar distribution** — law of the signed normal latitude as a mixture; Chernoff bounds for the tail.
* **C135 Stars do not influence each other** — heap model of whole programs; an invariant of separate ownership, and every statement refines the value model under it.
* **C136 Stars that share a collection** — the references of a star never change; aging a heap twice; reports on grids that do not fit raise (C148).
* **C137 Stars that share a generator** — a generator keeps the last grid it was given; cached spot distances do not follow the collection.
* **C138 Settings that are refused** — case analysis of the checks; every exception of the facula overlay is a ValueError.
* **C139 Units of flares** — each operation on quantities respects equality up to units; scaling of the trapezoidal rule; in base units every conversion is the identity.
* **C140 Switching flares on** — unit of the mean width of the default generator; C51 for the other half.
* **C141 Average over all observers** — the light from a point to an observer is symmetric in both, so by Fubini every point sends the same light to all observers together; accuracy of the report for one observer as in C99, integrated.
* **C142 Flares and observers** — sign of the cosine at the antipodes; area of a hemisphere.
* **C143 Surface map in single precision** — simulation of the map loop through rounding, which is strictly monotone on separated temperatures; then the renaming of report entries of C128.
* **C144 Geometry in double precision** — error analysis: each rounded operation adds a relative 2^-53; Hölder bound for arccos at the ends; series for sine and cosine give the rounded values that lead to NaN.
* **C145 The report in double precision** — errors of the weights up to a common factor, which drops out of the quotients; a sum by any tree of additions is off by its depth times 2^-53 of the sum of sizes; the areas sum to at least a sixth of the number of pixels.
* **C146 Only the side that faces the observer shows** — the weight of a pixel behind the limb is zero, so the share of a label depends on the visible pixels only; the disk of a far feature has mu < 0 by the triangle inequality on the sphere
* **C147 Average over one rotation** — turning by one step of the grid permutes the pixels of a parallel; exchange the sums; the mean over a parallel of the indicator is its share
* **C148 Grids that numpy combines silently** — arrays as shapes with entries by multi-index; an array of a grid is seen through broadcasting; shapes only grow, so all fit; sum over copies of a spiral.
* **C149 Granulation and its seed** — the covariance depends on differences only; a Cholesky factor of one or two times is determined.
* **C150 The report changes gradually as the observer moves** — projected light of a pixel is Lipschitz in the angle between observers; difference of two weighted means of numbers in [0,1]; total light from below by the quadrature bound of C99.
* **C151 Units of the observer and the planet** — each conversion succeeds exactly for the right dimension; then both computations agree step by step.
* **C152 Growing spots only cool the star, decaying spots only warm it** — caps grow with the area and every overlay keeps the least temperature, so a pixel takes the minimum over more temperatures.
* **C153 The report of a spotted star with all rounding** — the computed coordinates are close to the exact ones (C145), so the masks agree off the edges (C144); the rest is the sums of C145 for the computed map and a count of the light at the edges.
* **C154 Walls of a facula whose pixels lie equally far out** — the percentile lies between the entries number floor((n-1)q) and the next in the sorted list; count the entries up to it.
* **C155 The report of a star with faculae as the observer moves** — the pixels of a pair of temperatures do not depend on the observer, the rest as for C150; the jump on a 4 x 3 grid where two pixels are equally far out at the equator.
* **C156 The projection and the transit mask in double precision** — the cosine of the bearing is off by 1e-14 divided by the two sines, away from the centre and the poles less than 3e-6; after rounding to four decimals its sine is off by the square root of 1.1e-4; the computed distance is accurate to four units.
* **C157 Mature spots of spots that decay but do not grow** — dividing by the growth rate 0 makes the lifetime infinite or NaN; aging by it gives a NaN area; the counted angle is NaN, which is not below the target.
* **C158 Random number generators as objects, and reproducibility** — each method that draws is the method with random numbers as arguments applied to the numbers drawn; a simulation relation between two programs, kept by calls on the star itself and by calls on stars with other generators.
* **C159 Aging of spots in double precision** — the clock of a spot is its time to the maximum; every step, with all its roundings, changes the clock by the time up to a small error, whichever branch is taken; errors add.
* **C160 Aging of faculae in double precision** — the radius as an exponential of the clock; each rounding is a relative error and so an error of the clock; a decision that differs from the exact one is made only near the maximum or the end.
* **C161 Light from outside randomly placed faculae** — Fubini: a point of the disk lies outside a random facula with probability one minus the share of the sphere covered; independent faculae multiply, Poisson numbers give the exponential.
* **C162 Transit depth on spiral grids** — the quadrature on spiral cells of C103 applied to the uniform map; change of variables of C101.
* **C163 Flares in double precision** — relative errors through the integral and the peak; absolute ones through the polynomial and the exponentials; the two cut-offs compared with the exact ones.
* **C164 Overlap of circles in double precision** — the segment area is Lipschitz in the cosine of its angle, so errors of the argument do not blow up; the square root needs a chord that is not too short, except for r = 1 where a Hölder bound is enough; exact evaluation of the counterexample.
* **C165 Time-area of a flare in double precision** — C163 for the samples, relative errors of the trapezoids, the error of a sum in any order.
* **C166 Visible fraction of the planet in double precision** — error of the position in radii of the star; moving or growing a disk changes its overlap by at most the area of a ring; C164 for the computed position.
* **C167 Scatter of the light left by randomly placed spots** — the mean of the square of the light is an integral over pairs of points; the chance that a spot leaves both uncovered exceeds the square of the chance for one by at most the chance that it covers both; the light under one spot is at most proportional to its area.
* **C168 The number of spots and of faculae is Poisson distributed** — characteristic function of a thinned Poisson number; a sum of independent Poisson numbers is Poisson.
* **C169 The variance of the total area of spots and of faculae** — second moment of a sum over a Poisson number of independent draws; steps are independent.
* **C170 The numbers of spots and of faculae in a region** — characteristic function of two tallies over disjoint sets of draws; draws of the place and the lifetime are independent.
* **C171 The warnings of the package** — a model with warnings added, whose values are those of the model without; induction over the faculae.
* **C172 The memory of the surface** — both counts are tallies of the same draws; tallies of disjoint sets of Poisson draws are independent, which leaves the square of the common part.
* **C173 The light of a facula across the disk** — the wall's share as a closed form in half the distance of two unit disks, strictly increasing, crosses the balance once.
* **C174 The distribution of the numbers of flares** — the flares counted are a tally of the fair draws in the preimage of the set; a Poisson number of draws is thinned, and phases of two tallies factor.
* **C175 Random draws of flares in double precision** — one minus a draw is exact; the rounded exponent changes the power by its logarithm, at most 53 log 2; the draws above an energy are those with 1-x below a threshold and are counted.
* **C176 The coverage measured on a grid is on average exact** — get_coverage is the area of the pixels inside a spot (C24); every pixel centre is uncovered with the same probability, that of C122 and C123; the areas of the pixels add to one.
* **C177 The reported photosphere is on average exact** — the report is linear in the set of uncovered pixels (C57), and every pixel centre is uncovered with the same probability, that of C122 and C123; if the call raises, no pixel is uncovered (C59).
* **C178 Times, widths and temperatures of generated flares in double precision** — each rounded addition of numbers that are not negative adds at most two units in the last place to the relative error, and rounding is monotone (C175), so the running sum stays in order.
* **C179 Generated spots and faculae in double precision** — an absolute error of the exponent is a relative error of the power; rounding keeps the sign, so the same batch of ratios is accepted; the places are those of C175.
* **C180 The report of a star in transit in double precision** — the picture of a pixel moves less than the margin, so each comparison comes out as in exact arithmetic; two masks give shares that differ by their mean difference.
* **C181 A transit computed in double precision from the orbit to the report** — sin of an angle between 0 and the double next to pi is not negative; the place of the planet is a product with relative errors; then C180.

## 5. Validation against the project's own tests

`Verif/Tests/*.lean` restates the assertions of `/repo/test` about the model and proves them, as evidence that the model is
the code the tests were written for. Random draws are universally quantified, so a test that holds only with high
probability is restated with the hypothesis it needs. `Verif/Tests/Examples.lean` does the same for three of the programs in `/repo/examples`.
Not restated:

* assertions on types (`isinstance`), on `__str__`, on tinygp and on the identity of a class;
* sums over thousands of cells of a numeric mask in test_spots.py (pixel share of a mapped spot within 1 %, lower bound of
  `surface_fraction`) and test_transit_coverage on a spiral grid of a million points; the theorems C30, C97, C100, C101 and C104 bound
  these quantities on rectangular grids;
* that a random spot is larger than another one, and that a random map changes when it is aged;
* the third assertion of test_transit_mask (some pixel is covered in part);
* the effective area of a facula seen at exactly 90 degrees: exact arithmetic gives 0/0, the test passes because the double
  nearest to pi/2 has a cosine of 6e-17.
