{
 "claims": [
  {
   "property": "C01",
   "status": "proved",
   "theorems": [
    "Vsm.C01_rect_layout"
   ],
   "note": ""
  },
  {
   "property": "C02",
   "status": "proved",
   "theorems": [
    "Vsm.C02_area_partition",
    "Vsm.C02_degenerate"
   ],
   "note": "C02_degenerate shows why nlat >= 3 is needed (nlat = 2 has no area)."
  },
  {
   "property": "C03",
   "status": "proved",
   "theorems": [
    "Vsm.C03_mu_inner"
   ],
   "note": ""
  },
  {
   "property": "C04",
   "status": "proved",
   "theorems": [
    "Vsm.C04_spiral_equal_area"
   ],
   "note": ""
  },
  {
   "property": "C05",
   "status": "proved",
   "theorems": [
    "Vsm.C05_display_spiral",
    "Vsm.C05_display_spiral_bounds",
    "Vsm.C05_display_spiral_errors"
   ],
   "note": ""
  },
  {
   "property": "C06",
   "status": "partial",
   "theorems": [
    "Vsm.C06_eq_partial",
    "Vsm.C06_counterexample"
   ],
   "note": "The code violates the property: RectangularGrid == SpiralGrid raises TypeError while the reverse comparison answers False. The partial theorem covers everything else."
  },
  {
   "property": "C07",
   "status": "partial",
   "theorems": [
    "Vsm.C07_display_rect_partial",
    "Vsm.C07_counterexample"
   ],
   "note": "The code violates the property: the axes always have the grid's own sizes, not the requested ones."
  },
  {
   "property": "C08",
   "status": "proved",
   "theorems": [
    "Vsm.C08_new"
   ],
   "note": ""
  },
  {
   "property": "C09",
   "status": "proved",
   "theorems": [
    "Vsm.C09_angle_between",
    "Vsm.C09_angle_between_zero"
   ],
   "note": ""
  },
  {
   "property": "C10",
   "status": "proved",
   "theorems": [
    "Vsm.C10_pixel_distance"
   ],
   "note": ""
  },
  {
   "property": "C100",
   "status": "proved",
   "theorems": [
    "Vsm.C100_transit_accuracy",
    "Vsm.C100_convergence"
   ],
   "note": ""
  },
  {
   "property": "C101",
   "status": "proved",
   "theorems": [
    "Vsm.C101_transit_depth",
    "Vsm.C101_uniform_depth"
   ],
   "note": ""
  },
  {
   "property": "C102",
   "status": "proved",
   "theorems": [
    "Vsm.C102_facula_accuracy"
   ],
   "note": ""
  },
  {
   "property": "C103",
   "status": "proved",
   "theorems": [
    "Vsm.C103_spiral_accuracy",
    "Vsm.C103_spiral_converges"
   ],
   "note": ""
  },
  {
   "property": "C104",
   "status": "proved",
   "theorems": [
    "Vsm.C104_union_coverage",
    "Vsm.C104_spiral_coverage_converges"
   ],
   "note": ""
  },
  {
   "property": "C105",
   "status": "proved",
   "theorems": [
    "Vsm.C105_population",
    "Vsm.C105_lifetimes"
   ],
   "note": ""
  },
  {
   "property": "C106",
   "status": "proved",
   "theorems": [
    "Vsm.C106_plot_surface",
    "Vsm.C106_plot_planet",
    "Vsm.C106_plot_answers",
    "Vsm.C106_plot_spiral"
   ],
   "note": ""
  },
  {
   "property": "C107",
   "status": "partial",
   "theorems": [
    "Vsm.C107_plot_default_partial",
    "Vsm.C107_counterexample"
   ],
   "note": "False of the code: on a rectangular grid of another size than 500 x 1000 the default call raises TypeError, and on a spiral grid the opacity handed to imshow is one-dimensional. Proved: on the 500 x 1000 grid everything is handed over, on spiral grids mesh and black cells are."
  },
  {
   "property": "C108",
   "status": "proved",
   "theorems": [
    "Vsm.C108_uniform_positions"
   ],
   "note": ""
  },
  {
   "property": "C109",
   "status": "proved",
   "theorems": [
    "Vsm.C109_flare_rate"
   ],
   "note": ""
  },
  {
   "property": "C11",
   "status": "proved",
   "theorems": [
    "Vsm.C11_ortho_radius"
   ],
   "note": ""
  },
  {
   "property": "C110",
   "status": "proved",
   "theorems": [
    "Vsm.C110_births"
   ],
   "note": ""
  },
  {
   "property": "C111",
   "status": "partial",
   "theorems": [
    "Vsm.C111_steady_faculae_partial",
    "Vsm.C111_counterexample"
   ],
   "note": "False of the code: the area-time is coverage * 4 pi R^2 * t times (1 + e^-2)/2 * exp((ln 10 (2 sigma_r + sigma_life))^2/2), which is proved exactly; without scatter it is too small by the factor 0.57, because mean_area is pi r_0 times the time average of the radius instead of pi times that of its square."
  },
  {
   "property": "C112",
   "status": "partial",
   "theorems": [
    "Vsm.C112_flare_averages_partial",
    "Vsm.C112_counterexample"
   ],
   "note": "False of the code for the widths: dist_fwhm_mean is their median, their mean is dist_fwhm_mean * exp((ln 10 sigma)^2/2). Proved: mean and variance of the temperatures, median and mean of the widths."
  },
  {
   "property": "C113",
   "status": "proved",
   "theorems": [
    "Vsm.C113_last_flare"
   ],
   "note": ""
  },
  {
   "property": "C114",
   "status": "proved",
   "theorems": [
    "Vsm.C114_no_holes"
   ],
   "note": ""
  },
  {
   "property": "C115",
   "status": "proved",
   "theorems": [
    "Vsm.C115_display_accuracy",
    "Vsm.C115_display_converges"
   ],
   "note": ""
  },
  {
   "property": "C116",
   "status": "proved",
   "theorems": [
    "Vsm.C116_flat_radius"
   ],
   "note": ""
  },
  {
   "property": "C117",
   "status": "partial",
   "theorems": [
    "Vsm.C117_umbra_share_partial",
    "Vsm.C117_counterexample"
   ],
   "note": "False of the code: dividing the angular radius by the square root of the ratio makes the umbra larger than its share. Proved: its area is at least area/ratio and at most that times 1/(1 - theta^2/24)^2 <= 3; a spot over half of the star with ratio 4 has a larger umbra."
  },
  {
   "property": "C118",
   "status": "partial",
   "theorems": [
    "Vsm.C118_mean_coverage_partial",
    "Vsm.C118_counterexample"
   ],
   "note": "False of the code: cutting off at 0 and 1 shifts the average away from mean_coverage unless it is 1/2 (proved: larger below a half, smaller above), and the variance is amplitude/(sqrt(2) period). Proved: average and root mean square deviation are within the standard deviation of the process; exact for mean_coverage 1/2."
  },
  {
   "property": "C119",
   "status": "partial",
   "theorems": [
    "Vsm.C119_memory_partial",
    "Vsm.C119_counterexample"
   ],
   "note": "False of the code for the period: the covariance vanishes exactly at the lags sqrt(2) pi period (k + 3/4) and is positive for lags up to three periods. Proved: these zeros and the exponential decay."
  },
  {
   "property": "C12",
   "status": "partial",
   "theorems": [
    "Vsm.C12_ortho_accuracy_partial",
    "Vsm.C12_counterexample"
   ],
   "note": "The code violates the property at the poles: lon0 is ignored there. Proved for every centre that is not a pole and for poles with lon0 = 0 mod 360 degrees."
  },
  {
   "property": "C120",
   "status": "proved",
   "theorems": [
    "Vsm.C120_settled_faculae"
   ],
   "note": ""
  },
  {
   "property": "C121",
   "status": "proved",
   "theorems": [
    "Vsm.C121_settled_spots"
   ],
   "note": ""
  },
  {
   "property": "C122",
   "status": "proved",
   "theorems": [
    "Vsm.C122_uncovered_light"
   ],
   "note": ""
  },
  {
   "property": "C123",
   "status": "proved",
   "theorems": [
    "Vsm.C123_settled_light"
   ],
   "note": ""
  },
  {
   "property": "C124",
   "status": "proved",
   "theorems": [
    "Vsm.C124_area_ratios"
   ],
   "note": ""
  },
  {
   "property": "C125",
   "status": "proved",
   "theorems": [
    "Vsm.C125_spots",
    "Vsm.C125_faculae"
   ],
   "note": ""
  },
  {
   "property": "C126",
   "status": "proved",
   "theorems": [
    "Vsm.C126_spots",
    "Vsm.C126_faculae"
   ],
   "note": ""
  },
  {
   "property": "C127",
   "status": "partial",
   "theorems": [
    "Vsm.C127_aging_partial",
    "Vsm.C127_counterexample"
   ],
   "note": "False of the code for the default generator: SpotGenerator.off has a growth_rate in days, so whatever its generate_mature_spots returns for a positive coverage, aging raises UnitConversionError. Proved: aging works for every generator whose attributes have the right dimensions, in whatever units."
  },
  {
   "property": "C128",
   "status": "partial",
   "theorems": [
    "Vsm.C128_report_units_partial",
    "Vsm.C128_counterexample"
   ],
   "note": "False of the code when two temperatures differ by less than 0.01 of the unit: the keys are printed with two decimals, so in kK temperatures less than 10 K apart overwrite each other, and a star with granules 4 K cooler reports fractions that add up to 0 in kK and to 1 in K. Proved for temperatures further apart."
  },
  {
   "property": "C129",
   "status": "proved",
   "theorems": [
    "Vsm.C129_mature_number"
   ],
   "note": ""
  },
  {
   "property": "C13",
   "status": "proved",
   "theorems": [
    "Vsm.C13_circ_fraction_total"
   ],
   "note": ""
  },
  {
   "property": "C130",
   "status": "proved",
   "theorems": [
    "Vsm.C130_default_spots"
   ],
   "note": ""
  },
  {
   "property": "C131",
   "status": "proved",
   "theorems": [
    "Vsm.C131_fading",
    "Vsm.C131_report",
    "Vsm.C131_quiet_again"
   ],
   "note": ""
  },
  {
   "property": "C132",
   "status": "proved",
   "theorems": [
    "Vsm.C132_flare_energy"
   ],
   "note": ""
  },
  {
   "property": "C133",
   "status": "proved",
   "theorems": [
    "Vsm.C133_spots",
    "Vsm.C133_faculae",
    "Vsm.C133_flares"
   ],
   "note": ""
  },
  {
   "property": "C134",
   "status": "proved",
   "theorems": [
    "Vsm.C134_solar_places"
   ],
   "note": ""
  },
  {
   "property": "C135",
   "status": "proved",
   "theorems": [
    "Vsm.C135_apart",
    "Vsm.C135_program",
    "Vsm.C135_reachable"
   ],
   "note": ""
  },
  {
   "property": "C136",
   "status": "proved",
   "theorems": [
    "Vsm.C136_together",
    "Vsm.C136_aged_twice",
    "Vsm.C136_second_star"
   ],
   "note": ""
  },
  {
   "property": "C137",
   "status": "proved",
   "theorems": [
    "Vsm.C137_spots",
    "Vsm.C137_faculae"
   ],
   "note": ""
  },
  {
   "property": "C138",
   "status": "proved",
   "theorems": [
    "Vsm.C138_facula_generator",
    "Vsm.C138_spot_generator",
    "Vsm.C138_equal_temperatures"
   ],
   "note": ""
  },
  {
   "property": "C139",
   "status": "proved",
   "theorems": [
    "Vsm.C139_units",
    "Vsm.C139_flares",
    "Vsm.C139_refused"
   ],
   "note": ""
  },
  {
   "property": "C14",
   "status": "proved",
   "theorems": [
    "Vsm.C14_circ_fraction_area",
    "Vsm.C14_circ_fraction_antitone"
   ],
   "note": ""
  },
  {
   "property": "C140",
   "status": "partial",
   "theorems": [
    "Vsm.C140_switch_on_partial",
    "Vsm.C140_counterexample"
   ],
   "note": "False of the code: the mean width of FlareGenerator.off() is in ergs, so with a finite minimal energy every call that has a flare to draw raises UnitConversionError (C140_counterexample). Proved: off() makes no flares, and works if the mean width is also set."
  },
  {
   "property": "C141",
   "status": "proved",
   "theorems": [
    "Vsm.C141_mean_light",
    "Vsm.C141_mean_report"
   ],
   "note": ""
  },
  {
   "property": "C142",
   "status": "proved",
   "theorems": [
    "Vsm.C142_antipodes",
    "Vsm.C142_half"
   ],
   "note": ""
  },
  {
   "property": "C143",
   "status": "partial",
   "theorems": [
    "Vsm.C143_single_partial",
    "Vsm.C143_counterexample",
    "Vsm.C143_counterexample_faculae"
   ],
   "note": "False of the code: a temperature that single precision changes by name makes every report raise KeyError (C143_counterexample), one that it changes at all makes every report with a facula raise TypeError (C143_counterexample_faculae). Proved for separated temperatures in whole hundredths or 256ths of a kelvin."
  },
  {
   "property": "C144",
   "status": "partial",
   "theorems": [
    "Vsm.C144_distances_partial",
    "Vsm.C144_spot_pixels_partial",
    "Vsm.C144_facula_pixels_partial",
    "Vsm.C144_map_partial",
    "Vsm.C144_answers_partial",
    "Vsm.C144_counterexample"
   ],
   "note": "False of the code: rounding can lift the cosine of the angle of a point to itself above 1, then the angle is NaN and a star with a facula at the centre of the disk has no map (C144_counterexample). Proved: the error bounds away from there, and pixels 1e-6 away from the edges are attributed exactly."
  },
  {
   "property": "C145",
   "status": "proved",
   "theorems": [
    "Vsm.C145_coordinates",
    "Vsm.C145_report",
    "Vsm.C145_sum"
   ],
   "note": "The surface map and the transit mask are the exact ones; their rounding is the subject of C143 and C144."
  },
  {
   "property": "C146",
   "status": "proved",
   "theorems": [
    "Vsm.C146_visible",
    "Vsm.C146_far_features",
    "Vsm.C146_counterexample"
   ],
   "note": "Without the proviso that temperatures are more than 0.01 K apart it is false: a spot of 2700.004 K behind the limb turns the 2700 K entry from 1 to 0 (C146_counterexample)."
  },
  {
   "property": "C147",
   "status": "proved",
   "theorems": [
    "Vsm.C147_rotation_mean"
   ],
   "note": "Temperatures more than 0.01 K apart; rectangular grid, stars without faculae (the look of faculae depends on the observer)."
  },
  {
   "property": "C148",
   "status": "proved",
   "theorems": [
    "Vsm.C148_same",
    "Vsm.C148_refused",
    "Vsm.C148_fit",
    "Vsm.C148_stripes",
    "Vsm.C148_copies"
   ],
   "note": "C148_copies: no faculae, temperatures more than 0.01 K apart, some photosphere in view of the map. C148_refused: grids with at least one point."
  },
  {
   "property": "C149",
   "status": "proved",
   "theorems": [
    "Vsm.C149_shift",
    "Vsm.C149_first",
    "Vsm.C149_one_at_a_time",
    "Vsm.C149_two",
    "Vsm.C149_stars"
   ],
   "note": "tinygp is read as mean plus lower Cholesky factor times normal draws that depend on the seed and the number of times only."
  },
  {
   "property": "C15",
   "status": "proved",
   "theorems": [
    "Vsm.C15_clip_teff"
   ],
   "note": ""
  },
  {
   "property": "C150",
   "status": "proved",
   "theorems": [
    "Vsm.C150_gradual",
    "Vsm.C150_fine",
    "Vsm.C150_turning"
   ],
   "note": "Total fractions (the uncovered ones jump when a pixel leaves the transit mask). With faculae it holds for pairs of temperatures (C155_gradual) and fails for single ones (C155_jump)."
  },
  {
   "property": "C151",
   "status": "proved",
   "theorems": [
    "Vsm.C151_units",
    "Vsm.C151_answers"
   ],
   "note": "Real numbers (astropy lets plain infinities and nan pass like zero). The attributes of the star other than its radius are in fixed units; C125 - C128 are about those."
  },
  {
   "property": "C152",
   "status": "proved",
   "theorems": [
    "Vsm.C152_bigger_map",
    "Vsm.C152_bigger",
    "Vsm.C152_growing",
    "Vsm.C152_decaying",
    "Vsm.C152_counterexample"
   ],
   "note": "The counterexample shows that the bound on the areas is needed."
  },
  {
   "property": "C153",
   "status": "proved",
   "theorems": [
    "Vsm.C153_map",
    "Vsm.C153_report"
   ],
   "note": "The transit mask is taken as exact and faculae are left out. The temperatures are assumed to be exact in single precision and, with that of the granules, 0.01 K apart; some pixel away from the edges shows the photosphere (otherwise the code may raise)."
  },
  {
   "property": "C154",
   "status": "proved",
   "theorems": [
    "Vsm.C154_walls",
    "Vsm.C154_share",
    "Vsm.C154_all_walls"
   ],
   "note": "Generalises C41 to pixels with equal mu. Two different temperatures are assumed (otherwise walls and floor cannot be told apart) and a facula with a pixel."
  },
  {
   "property": "C155",
   "status": "proved",
   "theorems": [
    "Vsm.C155_gradual",
    "Vsm.C155_fine",
    "Vsm.C155_jump"
   ],
   "note": "C155_jump is the reason for pairing the two temperatures of a facula: the reported walls drop from 1 to at most 1/2 however little the observer moves."
  },
  {
   "property": "C156",
   "status": "proved",
   "theorems": [
    "Vsm.C156_projection",
    "Vsm.C156_mask",
    "Vsm.C156_centre"
   ],
   "note": "The margin of 0.012 is mostly that of np.round(cosC, 4); observers within 1e-4 of a pole and the integration over partly covered pixels are left out. C156_centre shows why the centre of the disk is excepted: the pixel there is lost, in double precision, for a place of the observer."
  },
  {
   "property": "C157",
   "status": "proved",
   "theorems": [
    "Vsm.C157_no_growth",
    "Vsm.C157_unseen",
    "Vsm.C157_stays"
   ],
   "note": "The time spots are aged by may be infinite or NaN in the model (StarSpot.ageFl)."
  },
  {
   "property": "C158",
   "status": "proved",
   "theorems": [
    "Vsm.C158_outcomes",
    "Vsm.C158_alone",
    "Vsm.C158_reproducible",
    "Vsm.C158_defaults",
    "Vsm.C158_shared"
   ],
   "note": "A numpy Generator is an arbitrary state machine. Stars do not share spots, faculae or generators other than through the random number generators. C158_shared is the negative side: with default arguments stars share generators, and the spots of one depend on calls on the other."
  },
  {
   "property": "C159",
   "status": "proved",
   "theorems": [
    "Vsm.C159_life",
    "Vsm.C159_exact",
    "Vsm.C159_each"
   ],
   "note": "Every operation is rounded to nearest; exp, log and log1p of the library are within one unit in the last place. Overflow and underflow are not modelled, and the numbers are taken in one system of units (no conversion factors)."
  },
  {
   "property": "C16",
   "status": "proved",
   "theorems": [
    "Vsm.C16_round_teff"
   ],
   "note": ""
  },
  {
   "property": "C160",
   "status": "proved",
   "theorems": [
    "Vsm.C160_life",
    "Vsm.C160_exact",
    "Vsm.C160_each"
   ],
   "note": "Arithmetic as in C159, including the constant np.e and the power in the threshold of clean_faclist."
  },
  {
   "property": "C161",
   "status": "proved",
   "theorems": [
    "Vsm.C161_newborn",
    "Vsm.C161_settled"
   ],
   "note": "Draws are taken as independent and exactly distributed, as in C122 and C123; light is integrated over the disk itself, not over the cells of a grid."
  },
  {
   "property": "C162",
   "status": "proved",
   "theorems": [
    "Vsm.C162_spiral_depth",
    "Vsm.C162_spiral_depth_converges"
   ],
   "note": "The counterpart of C101; the tolerance 0.0101 comes from the rounding of angles in the projection (C12)."
  },
  {
   "property": "C163",
   "status": "proved",
   "theorems": [
    "Vsm.C163_flare_rounding"
   ],
   "note": "Overflow and underflow are not modelled; the library functions are assumed to be accurate to 2^-52 and the conversion factor of astropy to 2^-47."
  },
  {
   "property": "C164",
   "status": "partial",
   "theorems": [
    "Vsm.C164_circle_rounding_partial",
    "Vsm.C164_counterexample"
   ],
   "note": "A number close to the true share for every r <= 1 is false of the code: calc_circ_fraction_inside_unit_circle(1.1, 0, 0.1) is NaN in double precision (C164_counterexample). Proved for r = 1, for circles that cross clearly and for disks clearly inside or outside; the band of circles that nearly touch is what is missing. Overflow and underflow are not modelled; np.arccos, np.cos and np.tan are assumed to be accurate to 2^-52, squares to be correctly rounded."
  },
  {
   "property": "C165",
   "status": "proved",
   "theorems": [
    "Vsm.C165_timearea_rounding"
   ],
   "note": "Times are given in days. Overflow and underflow are not modelled; the library functions are assumed to be accurate to 2^-52 and the conversion factor of astropy to 2^-47; the sum may be taken in any order of at most 2^40 levels."
  },
  {
   "property": "C166",
   "status": "proved",
   "theorems": [
    "Vsm.C166_planet_fraction_rounding"
   ],
   "note": "Lengths in one unit and angles in degrees; overflow and underflow are not modelled; sin, cos and arccos are assumed to be accurate to 2^-52, squares to be correctly rounded. Nothing is claimed within the stated margins of the limb, where C164 shows that NaN is possible."
  },
  {
   "property": "C167",
   "status": "proved",
   "theorems": [
    "Vsm.C167_light_scatter"
   ],
   "note": "The bound is an upper bound for the mean square deviation, and by the inequality of Chebyshev for the probability of a deviation; uniform independent draws."
  },
  {
   "property": "C168",
   "status": "proved",
   "theorems": [
    "Vsm.C168_spot_number",
    "Vsm.C168_facula_number"
   ],
   "note": "The distribution is exactly Poisson; its mean is given up to the bounds of C120 and C121. Independent draws with a Poisson number of births in every step."
  },
  {
   "property": "C169",
   "status": "proved",
   "theorems": [
    "Vsm.C169_spot_scatter",
    "Vsm.C169_facula_scatter"
   ],
   "note": "An identity between means in [0, infinity]; independent draws with a Poisson number of births in every step."
  },
  {
   "property": "C17",
   "status": "proved",
   "theorems": [
    "Vsm.C17_angular_radius",
    "Vsm.C17_angular_radius_mono"
   ],
   "note": ""
  },
  {
   "property": "C170",
   "status": "proved",
   "theorems": [
    "Vsm.C170_spot_regions",
    "Vsm.C170_facula_regions"
   ],
   "note": "The mean M of the number of all features is the one of C168. Places spread evenly over the sphere (isotropic distribution of spots), independent draws with a Poisson number of births in every step."
  },
  {
   "property": "C171",
   "status": "proved",
   "theorems": [
    "Vsm.C171_report",
    "Vsm.C171_new",
    "Vsm.C171_add",
    "Vsm.C171_always"
   ],
   "note": "The calls of warnings.warn of the package; numpy warnings and the suppression of repeated warnings are not modelled."
  },
  {
   "property": "C172",
   "status": "proved",
   "theorems": [
    "Vsm.C172_spot_memory",
    "Vsm.C172_facula_memory"
   ],
   "note": "Spots with the isotropic distribution; the draws of the generators are fair (FairSpots)."
  },
  {
   "property": "C173",
   "status": "proved",
   "theorems": [
    "Vsm.C173_light_curve",
    "Vsm.C173_deeper",
    "Vsm.C173_example"
   ],
   "note": "The facula has a visible floor (its floor and wall temperature keys differ)."
  },
  {
   "property": "C174",
   "status": "proved",
   "theorems": [
    "Vsm.C174_flare_numbers",
    "Vsm.C174_strongest"
   ],
   "note": "The draws are fair (FairSeries); clusters share no draws, as in the code."
  },
  {
   "property": "C175",
   "status": "proved",
   "theorems": [
    "Vsm.C175_energies",
    "Vsm.C175_distribution",
    "Vsm.C175_expected",
    "Vsm.C175_places"
   ],
   "note": "Exponent alpha at most -0.1 (and at least -1000 for the distribution); powers of the mathematical library with a relative error of at most 2^-52 that respect 1; overflow is not modelled."
  },
  {
   "property": "C176",
   "status": "proved",
   "theorems": [
    "Vsm.C176_newborn",
    "Vsm.C176_settled"
   ],
   "note": "Isotropic spots. Exact if every umbra is part of its spot (ratio of areas at least 1), which normally distributed ratios violate with a probability below 4e-5; a lower bound in any case."
  },
  {
   "property": "C177",
   "status": "proved",
   "theorems": [
    "Vsm.C177_newborn",
    "Vsm.C177_settled"
   ],
   "note": "Isotropic spots cooler than the photosphere whose umbrae are parts of them, no faculae, temperatures more than 0.01 K apart; a call that raises because no photosphere is left counts as zero."
  },
  {
   "property": "C178",
   "status": "proved",
   "theorems": [
    "Vsm.C178_peaks",
    "Vsm.C178_teffs",
    "Vsm.C178_fwhm"
   ],
   "note": "IEEE double precision without overflow and underflow; powers and log10 of a library with relative error 2^-52."
  },
  {
   "property": "C179",
   "status": "proved",
   "theorems": [
    "Vsm.C179_spots",
    "Vsm.C179_faculae"
   ],
   "note": "IEEE double precision without overflow and underflow; exp, log, powers and arcsin of a library with relative error 2^-52."
  },
  {
   "property": "C18",
   "status": "proved",
   "theorems": [
    "Vsm.C18_membership",
    "Vsm.C18_mono"
   ],
   "note": "When umbra and penumbra temperature are equal the code's dict holds one entry only; the theorems speak about the masks."
  },
  {
   "property": "C180",
   "status": "proved",
   "theorems": [
    "Vsm.C180_mask",
    "Vsm.C180_report",
    "Vsm.C180_transit"
   ],
   "note": "Stars with spots and no faculae on the computed grid (as C153); the place and size of the planet and the sizes of the pixels may be off by 1e-5; the Gaussian integrals of pixels at the edge are any numbers in [0, 1]."
  },
  {
   "property": "C181",
   "status": "proved",
   "theorems": [
    "Vsm.C181_sizes",
    "Vsm.C181_branches",
    "Vsm.C181_transit",
    "Vsm.C181_free"
   ],
   "note": "As C180, with lengths in one unit and angles in radians; sums of areas with at most 1000 additions after each other."
  },
  {
   "property": "C19",
   "status": "partial",
   "theorems": [
    "Vsm.C19_coolest_partial",
    "Vsm.C19_counterexample"
   ],
   "note": "The code violates the property when an umbra is hotter than its penumbra: the penumbra mask contains the umbra and the order of the two overlays matters. Proved whenever every umbra is at most as hot as its penumbra."
  },
  {
   "property": "C20",
   "status": "partial",
   "theorems": [
    "Vsm.C20_area_bounds_partial",
    "Vsm.C20_collection",
    "Vsm.C20_counterexample"
   ],
   "note": "The code violates the property: in the decay phase the loss is compared with area_max instead of area_current, so the area of a single spot can become negative. Proved: all other clauses, and the full bounds for spots kept in a collection."
  },
  {
   "property": "C21",
   "status": "proved",
   "theorems": [
    "Vsm.C21_age_add",
    "Vsm.C21_age_schedule"
   ],
   "note": ""
  },
  {
   "property": "C22",
   "status": "proved",
   "theorems": [
    "Vsm.C22_age_removes"
   ],
   "note": ""
  },
  {
   "property": "C23",
   "status": "proved",
   "theorems": [
    "Vsm.C23_lifetime",
    "Vsm.C23_lifetime_large",
    "Vsm.C23_locality"
   ],
   "note": ""
  },
  {
   "property": "C24",
   "status": "proved",
   "theorems": [
    "Vsm.C24_coverage",
    "Vsm.C24_coverage_laws"
   ],
   "note": ""
  },
  {
   "property": "C25",
   "status": "partial",
   "theorems": [
    "Vsm.C25_generator_statistics_partial",
    "Vsm.C25_counterexample"
   ],
   "note": "The code violates the property: mean_lifetime divides by growth_rate where the evolution uses log(1+growth_rate), and mean_area adds init_area/growth_rate instead of subtracting. The partial theorem gives both sides exactly."
  },
  {
   "property": "C26",
   "status": "proved",
   "theorems": [
    "Vsm.C26_births_balance",
    "Vsm.C26_no_births"
   ],
   "note": ""
  },
  {
   "property": "C27",
   "status": "proved",
   "theorems": [
    "Vsm.C27_generate",
    "Vsm.C27_unit"
   ],
   "note": ""
  },
  {
   "property": "C28",
   "status": "partial",
   "theorems": [
    "Vsm.C28_mature_partial",
    "Vsm.C28_counterexample"
   ],
   "note": "The code violates the property: it adds pi*theta^2 per spot, which exceeds the true solid angle of the cap, so the spots can subtend less than requested; a NaN angular radius also ends the loop. The partial theorem proves the loop invariant for the angle the code counts."
  },
  {
   "property": "C29",
   "status": "partial",
   "theorems": [
    "Vsm.C29_one_grid_partial",
    "Vsm.C29_counterexample"
   ],
   "note": "The code violates the property: add_spot replaces the gridmaker of a spot but keeps its distance array, so a spot built on another grid makes Star.map raise ValueError. The partial theorem covers every history in which hand-added spots were measured on the star's grid; C66_unified supplies its hypothesis for every constructed star."
  },
  {
   "property": "C30",
   "status": "proved",
   "theorems": [
    "Vsm.C30_surface_fraction"
   ],
   "note": ""
  },
  {
   "property": "C31",
   "status": "proved",
   "theorems": [
    "Vsm.C31_radius_step",
    "Vsm.C31_radius_bounds"
   ],
   "note": ""
  },
  {
   "property": "C32",
   "status": "proved",
   "theorems": [
    "Vsm.C32_age_add",
    "Vsm.C32_age_schedule"
   ],
   "note": ""
  },
  {
   "property": "C33",
   "status": "proved",
   "theorems": [
    "Vsm.C33_lifetime"
   ],
   "note": ""
  },
  {
   "property": "C34",
   "status": "proved",
   "theorems": [
    "Vsm.C34_shares"
   ],
   "note": "Faculae whose rounded wall and floor temperatures coincide are the subject of C36."
  },
  {
   "property": "C35",
   "status": "proved",
   "theorems": [
    "Vsm.C35_brightening"
   ],
   "note": "Faculae whose rounded wall and floor temperatures coincide are the subject of C36."
  },
  {
   "property": "C36",
   "status": "partial",
   "theorems": [
    "Vsm.C36_two_entries_partial",
    "Vsm.C36_counterexample"
   ],
   "note": "The code violates the property: temperatures that differ by less than 1 K may round to the same key and one entry is lost. Proved whenever the rounded temperatures differ."
  },
  {
   "property": "C37",
   "status": "partial",
   "theorems": [
    "Vsm.C37_mean_area_partial",
    "Vsm.C37_counterexample"
   ],
   "note": "The code violates the property: mean_area is the true time average multiplied by 2/(1+exp(-2)). The partial theorem states the exact relation."
  },
  {
   "property": "C38",
   "status": "proved",
   "theorems": [
    "Vsm.C38_births_balance"
   ],
   "note": ""
  },
  {
   "property": "C39",
   "status": "partial",
   "theorems": [
    "Vsm.C39_add_faculae_partial",
    "Vsm.C39_counterexample"
   ],
   "note": "The code violates the property: adding a facula with a rectangular grid to a collection with a spiral grid raises TypeError. The partial theorem characterises success and failure completely."
  },
  {
   "property": "C40",
   "status": "proved",
   "theorems": [
    "Vsm.C40_overlay"
   ],
   "note": ""
  },
  {
   "property": "C41",
   "status": "proved",
   "theorems": [
    "Vsm.C41_wall_share"
   ],
   "note": ""
  },
  {
   "property": "C42",
   "status": "proved",
   "theorems": [
    "Vsm.C42_curve_shape"
   ],
   "note": ""
  },
  {
   "property": "C43",
   "status": "proved",
   "theorems": [
    "Vsm.C43_energy"
   ],
   "note": ""
  },
  {
   "property": "C44",
   "status": "proved",
   "theorems": [
    "Vsm.C44_quantile"
   ],
   "note": ""
  },
  {
   "property": "C45",
   "status": "proved",
   "theorems": [
    "Vsm.C45_frequency"
   ],
   "note": ""
  },
  {
   "property": "C46",
   "status": "proved",
   "theorems": [
    "Vsm.C46_peaks"
   ],
   "note": ""
  },
  {
   "property": "C47",
   "status": "proved",
   "theorems": [
    "Vsm.C47_kept"
   ],
   "note": ""
  },
  {
   "property": "C48",
   "status": "proved",
   "theorems": [
    "Vsm.C48_visible"
   ],
   "note": ""
  },
  {
   "property": "C49",
   "status": "partial",
   "theorems": [
    "Vsm.C49_timearea_partial",
    "Vsm.C49_counterexample"
   ],
   "note": "The code violates the property: a window shorter than twenty minutes is sampled with at most one point, so every flare contributes zero. The partial theorem covers all windows of at least twenty minutes."
  },
  {
   "property": "C50",
   "status": "proved",
   "theorems": [
    "Vsm.C50_superposition"
   ],
   "note": ""
  },
  {
   "property": "C51",
   "status": "proved",
   "theorems": [
    "Vsm.C51_series"
   ],
   "note": ""
  },
  {
   "property": "C52",
   "status": "partial",
   "theorems": [
    "Vsm.C52_density_partial",
    "Vsm.C52_counterexample"
   ],
   "note": "The code violates the property: pdf always raises UnitConversionError because its value has the unit 1/erg. The partial theorem says the number computed before the conversion is the derivative of cdf."
  },
  {
   "property": "C53",
   "status": "proved",
   "theorems": [
    "Vsm.C53_isotropic",
    "Vsm.fracNorth_eq"
   ],
   "note": ""
  },
  {
   "property": "C54",
   "status": "proved",
   "theorems": [
    "Vsm.C54_coverage_fraction"
   ],
   "note": ""
  },
  {
   "property": "C55",
   "status": "proved",
   "theorems": [
    "Vsm.C55_kernel"
   ],
   "note": ""
  },
  {
   "property": "C56",
   "status": "partial",
   "theorems": [
    "Vsm.C56_switched_off_partial",
    "Vsm.C56_counterexample"
   ],
   "note": "The code violates the second clause: with zero mean and dteff != 0 the lookup params['amp'] raises KeyError. The first clause holds for every granulation."
  },
  {
   "property": "C57",
   "status": "partial",
   "theorems": [
    "Vsm.C57_shares_partial",
    "Vsm.C57_counterexample"
   ],
   "note": "Proved when any two different temperatures (map, photosphere, granulation) differ by more than 0.01 K: the sum is exactly 1, every entry is its share of the disk with the granulation fraction moved, no other entries. Refuted in general: temperatures within 0.01 K share a dict key and overwrite each other (sum 0 for granules 0.001 K cooler than the photosphere)."
  },
  {
   "property": "C58",
   "status": "proved",
   "theorems": [
    "Vsm.C58_fractions"
   ],
   "note": "Hypotheses: good grid, physical limb darkening, observer latitude in [-90,90] deg, some pixel with area visible, granulation fraction in [0,1]; conclusion for every result returned."
  },
  {
   "property": "C59",
   "status": "partial",
   "theorems": [
    "Vsm.C59_answers_partial",
    "Vsm.C59_counterexample",
    "Vsm.C59_counterexample_eclipse"
   ],
   "note": "Proved: a finite result under the listed conditions. Refuted in general: KeyError when no photosphere pixel is left and granulation is on; ValueError in an eclipse of a planet larger than the star."
  },
  {
   "property": "C60",
   "status": "proved",
   "theorems": [
    "Vsm.C60_granulation_moves"
   ],
   "note": "Includes that failure does not depend on the granulation fraction."
  },
  {
   "property": "C61",
   "status": "proved",
   "theorems": [
    "Vsm.C61_visible"
   ],
   "note": "Rectangular grids with nlat>=4, nlon>=3, physical limb darkening. C61_two_meridians shows that nlon>=3 cannot be weakened to 2."
  },
  {
   "property": "C62",
   "status": "proved",
   "theorems": [
    "Vsm.C62_limb_darkening"
   ],
   "note": "All mu in [-1,1]; the relation between the two masks holds for every pair of coefficients."
  },
  {
   "property": "C63",
   "status": "proved",
   "theorems": [
    "Vsm.C63_transit_mask"
   ],
   "note": "Includes the proof that the 100x100 trapezoid integral of the Gaussian never exceeds 1. Sub-observer latitude in [-90,90] degrees, grid with defined areas."
  },
  {
   "property": "C64",
   "status": "proved",
   "theorems": [
    "Vsm.C64_planet_fraction"
   ],
   "note": "Positive planet radius; the share is stated with the Lebesgue measure of the overlap of two disks."
  },
  {
   "property": "C65",
   "status": "partial",
   "theorems": [
    "Vsm.C65_fourth_power_mean_partial",
    "Vsm.C65_counterexample"
   ],
   "note": "average_teff always raises (string keys), C65_counterexample. The arithmetic of its loop on numeric keys gives the fourth-power mean between the extreme temperatures."
  },
  {
   "property": "C66",
   "status": "proved",
   "theorems": [
    "Vsm.C66_unified",
    "Vsm.C66_grid"
   ],
   "note": ""
  },
  {
   "property": "C67",
   "status": "proved",
   "theorems": [
    "Vsm.C67_quiet"
   ],
   "note": ""
  },
  {
   "property": "C68",
   "status": "partial",
   "theorems": [
    "Vsm.C68_age_once_partial",
    "Vsm.C68_counterexample"
   ],
   "note": "The code violates the property for a collection holding one object twice: it is aged twice. The partial theorem covers all collections without repetition and says exactly how often an object is aged."
  },
  {
   "property": "C69",
   "status": "partial",
   "theorems": [
    "Vsm.C69_hot_walls_partial",
    "Vsm.C69_counterexample"
   ],
   "note": "The code violates the second clause for stars hotter than 3900 K: clip_teff caps the wall at 3900 K while the photosphere is not clipped. The first clause holds for every star."
  },
  {
   "property": "C70",
   "status": "proved",
   "theorems": [
    "Vsm.C70_overlay_total",
    "Vsm.C70_limb_raises"
   ],
   "note": "C70_limb_raises shows that the exclusion of faculae exactly on the limb is necessary."
  },
  {
   "property": "C71",
   "status": "proved",
   "theorems": [
    "Vsm.C71_spiral_disk"
   ],
   "note": "Spiral grids with n >= 5. C71_one_point shows that n = 1 and n = 2 do not suffice."
  },
  {
   "property": "C72",
   "status": "proved",
   "theorems": [
    "Vsm.C72_timearea_accuracy"
   ],
   "note": "Windows of at least 20 minutes; shorter windows get fewer than two samples in the code (see C49)."
  },
  {
   "property": "C73",
   "status": "proved",
   "theorems": [
    "Vsm.C73_series_order"
   ],
   "note": ""
  },
  {
   "property": "C74",
   "status": "partial",
   "theorems": [
    "Vsm.C74_within_partial",
    "Vsm.C74_counterexample"
   ],
   "note": "The code violates the full statement for every generator: when all unit exponential draws exceed their mean some flare peaks after the end; at the mean the last one peaks no earlier than the end. Proved: peaks lie between 0 and 3/2 x duration x largest draw."
  },
  {
   "property": "C75",
   "status": "proved",
   "theorems": [
    "Vsm.C75_exposure"
   ],
   "note": "The symmetric-sampling clause needs oversample >= 2; C75_one_sample shows that with one sample the curve is evaluated at the start of the exposure."
  },
  {
   "property": "C76",
   "status": "proved",
   "theorems": [
    "Vsm.C76_flare_history"
   ],
   "note": ""
  },
  {
   "property": "C77",
   "status": "proved",
   "theorems": [
    "Vsm.C77_history"
   ],
   "note": ""
  },
  {
   "property": "C78",
   "status": "proved",
   "theorems": [
    "Vsm.C78_well_formed",
    "Vsm.C78_sound"
   ],
   "note": "First theorem: aging times >= 0, added features well formed, drawn peak areas not below the initial area. Second theorem: no condition on the draws."
  },
  {
   "property": "C79",
   "status": "proved",
   "theorems": [
    "Vsm.C79_rotation"
   ],
   "note": "Rectangular grids, observer latitude strictly between the poles (necessary: see C84)."
  },
  {
   "property": "C80",
   "status": "proved",
   "theorems": [
    "Vsm.C80_full_turns"
   ],
   "note": ""
  },
  {
   "property": "C81",
   "status": "proved",
   "theorems": [
    "Vsm.C81_north_south"
   ],
   "note": ""
  },
  {
   "property": "C82",
   "status": "proved",
   "theorems": [
    "Vsm.C82_east_west"
   ],
   "note": ""
  },
  {
   "property": "C83",
   "status": "proved",
   "theorems": [
    "Vsm.C83_scale"
   ],
   "note": "Spots with a finite area and faculae with a finite radius."
  },
  {
   "property": "C84",
   "status": "proved",
   "theorems": [
    "Vsm.C84_pole_on"
   ],
   "note": ""
  },
  {
   "property": "C85",
   "status": "proved",
   "theorems": [
    "Vsm.C85_bigger_planet_mask",
    "Vsm.C85_bigger_planet"
   ],
   "note": "Sub-observer latitude in [-90,90] degrees; calc_coverage part for physical limb darkening and a visible disk."
  },
  {
   "property": "C86",
   "status": "proved",
   "theorems": [
    "Vsm.C86_no_transit"
   ],
   "note": "Sub-observer latitude in [-90,90] degrees, physical limb darkening, visible disk."
  },
  {
   "property": "C87",
   "status": "proved",
   "theorems": [
    "Vsm.C87_adding_spots_map",
    "Vsm.C87_photosphere_share"
   ],
   "note": ""
  },
  {
   "property": "C88",
   "status": "proved",
   "theorems": [
    "Vsm.C88_spot_order",
    "Vsm.C88_facula_order"
   ],
   "note": ""
  },
  {
   "property": "C89",
   "status": "proved",
   "theorems": [
    "Vsm.C89_mature_list",
    "Vsm.C89_mature_ends"
   ],
   "note": ""
  },
  {
   "property": "C90",
   "status": "proved",
   "theorems": [
    "Vsm.C90_mature_spot",
    "Vsm.C90_static_ends"
   ],
   "note": "Area bounds need the initial area positive and not above the drawn peak area; termination needs peak areas that fit on the star."
  },
  {
   "property": "C91",
   "status": "proved",
   "theorems": [
    "Vsm.C91_spacing"
   ],
   "note": ""
  },
  {
   "property": "C92",
   "status": "proved",
   "theorems": [
    "Vsm.C92_cell_area"
   ],
   "note": ""
  },
  {
   "property": "C93",
   "status": "proved",
   "theorems": [
    "Vsm.C93_warning",
    "Vsm.C93_enough_points"
   ],
   "note": "Sub-observer latitude in [-90,90] degrees."
  },
  {
   "property": "C94",
   "status": "proved",
   "theorems": [
    "Vsm.C94_facula_index"
   ],
   "note": "The int16 range of the map is not represented."
  },
  {
   "property": "C95",
   "status": "proved",
   "theorems": [
    "Vsm.C95_map_temperatures",
    "Vsm.C95_keys",
    "Vsm.C95_key_origin"
   ],
   "note": ""
  },
  {
   "property": "C96",
   "status": "partial",
   "theorems": [
    "Vsm.C96_surface_fraction_partial",
    "Vsm.C96_counterexample"
   ],
   "note": "False of the code: it divides by 2 pi instead of pi and treats the spot as a flat disk, so a spot at the disk centre gets about half of its share. Proved: the integral it does approximate, with error bound, and the upper bound theta^2/2."
  },
  {
   "property": "C97",
   "status": "proved",
   "theorems": [
    "Vsm.C97_fraction_laws"
   ],
   "note": ""
  },
  {
   "property": "C98",
   "status": "proved",
   "theorems": [
    "Vsm.C98_coverage_accuracy",
    "Vsm.C98_many_spots",
    "Vsm.C98_convergence"
   ],
   "note": ""
  },
  {
   "property": "C99",
   "status": "proved",
   "theorems": [
    "Vsm.C99_disk_accuracy",
    "Vsm.C99_convergence"
   ],
   "note": ""
  }
 ]
}