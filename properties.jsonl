{"id": "C01", "title": "Rectangular grid layout", "statement": "RectangularGrid(nlat,nlon).grid() returns two arrays of shape (nlon,nlat) whose entry (i,j) is the j-th of nlat equally spaced latitudes running from -90 to 90 degrees inclusive, and the i-th of nlon equally spaced longitudes starting at 0 and never reaching 360; zeros() and area have the same shape.", "quantifier": "every nlat >= 2, nlon >= 1, every index", "why_tests_cant": "tests check a single (100,200) grid", "anchors": ["vspec_vsm/coordinate_grid.py:RectangularGrid._grid", "vspec_vsm/coordinate_grid.py:get_lat_points", "vspec_vsm/coordinate_grid.py:get_lon_points"]}
{"id": "C02", "title": "Grid areas are a partition of unity", "statement": "CoordinateGrid.area is non-negative at every point and sums to 1 over the grid, so that area*4*pi*R^2 sums to the stellar surface area.", "quantifier": "every rectangular grid with nlat >= 3, nlon >= 1 and every spiral grid with n_points >= 1", "why_tests_cant": "unbounded family of grids; tests look at a few sizes", "anchors": ["vspec_vsm/coordinate_grid.py:RectangularGrid._area", "vspec_vsm/coordinate_grid.py:SpiralGrid._area"]}
{"id": "C03", "title": "mu is the cosine of the angle from disk centre", "statement": "cos_angle_from_disk_center(lat0,lon0) is at every pixel the inner product of the unit vectors of the pixel and of the sub-observer point; it lies in [-1,1] and is 1 exactly when the pixel is at the sub-observer point.", "quantifier": "every grid, pixel and sub-observer coordinate", "why_tests_cant": "continuous domain", "anchors": ["vspec_vsm/coordinate_grid.py:CoordinateGrid.cos_angle_from_disk_center", "vspec_vsm/star.py:Star.get_mu"]}
{"id": "C04", "title": "Spiral grid is an equal-area sampling", "statement": "SpiralGrid(n).grid() yields n pairwise distinct points with latitudes strictly decreasing strictly between the poles, longitudes in [0,360), and for every latitude threshold the number of points north of it differs from n times the exact fraction of the sphere north of it by at most 1/2.", "quantifier": "every n_points >= 1, every pair of indices, every latitude threshold", "why_tests_cant": "quantifies over all grid sizes and thresholds", "anchors": ["vspec_vsm/coordinate_grid.py:SpiralGrid._grid"]}
{"id": "C05", "title": "Resampling a spiral map is a weighted mean", "statement": "SpiralGrid.display_grid returns at every pixel a value between the minimum and maximum of the input data, reproduces constant data exactly, and is linear in the data; it raises ValueError exactly when the data is not one dimensional of length n_points.", "quantifier": "every n_points >= 1, nlat, nlon, every data array", "why_tests_cant": "continuous data; tests use one array", "anchors": ["vspec_vsm/coordinate_grid.py:SpiralGrid._display_grid", "vspec_vsm/coordinate_grid.py:CoordinateGrid.display_grid"]}
{"id": "C06", "title": "Grid equality decides same layout", "statement": "Comparing two grids with == is True exactly when they are of the same kind with the same resolution; it never raises when both operands are CoordinateGrid objects, and is symmetric.", "quantifier": "every pair of grids", "why_tests_cant": "relation over all pairs", "anchors": ["vspec_vsm/coordinate_grid.py:RectangularGrid.__eq__", "vspec_vsm/coordinate_grid.py:SpiralGrid.__eq__"]}
{"id": "C07", "title": "Rectangular display_grid returns consistent axes", "statement": "RectangularGrid.display_grid(nlat,nlon,data) either raises TypeError or returns the data unchanged together with a latitude axis of length nlat and a longitude axis of length nlon, as documented.", "quantifier": "every grid, requested nlat/nlon and data shape", "why_tests_cant": "all shapes", "anchors": ["vspec_vsm/coordinate_grid.py:RectangularGrid._display_grid"]}
{"id": "C08", "title": "CoordinateGrid.new dispatches on the parameter type", "statement": "CoordinateGrid.new(n) for an int gives a spiral grid of n points, for a tuple of at most two ints the rectangular grid with those nlat,nlon (missing ones default to 500 and 1000), and raises TypeError for every other argument.", "quantifier": "every argument value", "why_tests_cant": "type-directed case analysis over all values", "anchors": ["vspec_vsm/coordinate_grid.py:CoordinateGrid.new", "vspec_vsm/coordinate_grid.py:RectangularGrid.__init__"]}
{"id": "C09", "title": "Angle between coordinates is great-circle distance", "statement": "get_angle_between is the great-circle angle: it lies in [0,pi], is symmetric, is zero exactly for coordinates naming the same point of the sphere, obeys the triangle inequality, and is unchanged when both longitudes are shifted by the same amount.", "quantifier": "every pair/triple of coordinates", "why_tests_cant": "continuous domain", "anchors": ["vspec_vsm/helpers.py:get_angle_between"]}
{"id": "C10", "title": "Spot and facula pixel distances are great-circle distances", "statement": "The distance array used to decide which pixels a StarSpot or Facula covers (haversine formula) equals get_angle_between(centre,pixel) at every pixel.", "quantifier": "every centre, every pixel of every grid", "why_tests_cant": "continuous domain; two different formulas in the code", "anchors": ["vspec_vsm/spots.py:StarSpot.set_gridmaker", "vspec_vsm/faculae.py:Facula._r", "vspec_vsm/helpers.py:get_angle_between"]}
{"id": "C11", "title": "Orthographic projection radius and visibility", "statement": "proj_ortho returns NaN for a point exactly when the point is on the far hemisphere, and otherwise x^2+y^2 = sin^2 of the angle from the centre, so every visible point projects into the unit disk at the exact radial distance.", "quantifier": "every centre (including poles) and every point", "why_tests_cant": "continuous domain with special cases", "anchors": ["vspec_vsm/helpers.py:proj_ortho"]}
{"id": "C12", "title": "Orthographic projection accuracy", "statement": "For every visible point proj_ortho returns the orthographic coordinates x = cos(lat)sin(lon-lon0), y = cos(lat0)sin(lat)-sin(lat0)cos(lat)cos(lon-lon0) up to the 4-decimal rounding of the position angle: |y error| <= 5e-5, x has the right sign and |x^2 error| <= 1e-4.", "quantifier": "every centre and every visible point", "why_tests_cant": "continuous domain with special cases", "anchors": ["vspec_vsm/helpers.py:proj_ortho"]}
{"id": "C13", "title": "Circle fraction is total and bounded", "statement": "calc_circ_fraction_inside_unit_circle(x,y,r) raises ValueError exactly when r > 1 and otherwise returns a number (never NaN or infinite) in [0,1]; it is 0 whenever the circles are disjoint and 1 whenever the circle lies inside the unit circle.", "quantifier": "every real x,y,r", "why_tests_cant": "continuous domain, division and arccos domain edges", "anchors": ["vspec_vsm/helpers.py:calc_circ_fraction_inside_unit_circle"]}
{"id": "C14", "title": "Circle fraction is the true overlap area", "statement": "For 0 < r <= 1 the returned fraction equals the Lebesgue area of the intersection of the unit disk with the disk of radius r centred at (x,y), divided by the area of the latter; it never increases as the centre moves outward.", "quantifier": "every centre and every 0 < r <= 1", "why_tests_cant": "equality with a measure over a continuum", "anchors": ["vspec_vsm/helpers.py:calc_circ_fraction_inside_unit_circle"]}
{"id": "C15", "title": "Temperature clipping", "statement": "clip_teff returns a temperature within the grid bounds [2300 K, 3900 K], leaves temperatures within the bounds unchanged, is monotone and idempotent.", "quantifier": "every temperature", "why_tests_cant": "continuous domain", "anchors": ["vspec_vsm/helpers.py:clip_teff", "vspec_vsm/config.py:grid_teff_bounds"]}
{"id": "C16", "title": "Temperature rounding", "statement": "round_teff returns a whole number of kelvin within 0.5 K of its input, leaves whole temperatures unchanged and is monotone (ties go to the even integer).", "quantifier": "every temperature", "why_tests_cant": "continuous domain", "anchors": ["vspec_vsm/helpers.py:round_teff"]}
{"id": "C17", "title": "Spot angular radius encloses the spot area", "statement": "StarSpot.angular_radius(R) is the angle theta in [0,pi] whose spherical cap of area 2 pi R^2 (1-cos theta) is exactly area_current; it is increasing in the area and is NaN exactly when the area is outside [0, 4 pi R^2].", "quantifier": "every area and stellar radius", "why_tests_cant": "continuous domain", "anchors": ["vspec_vsm/spots.py:StarSpot.angular_radius"]}
{"id": "C18", "title": "Spot pixel membership", "statement": "StarSpot.map_pixels marks a pixel as spot exactly when its great-circle distance from the centre is below the angular radius, and as umbra when below that radius divided by sqrt(ratio); for ratio >= 1 umbra pixels are a subset of spot pixels, and both sets grow with the area.", "quantifier": "every spot, ratio, grid and stellar radius", "why_tests_cant": "continuous domain", "anchors": ["vspec_vsm/spots.py:StarSpot.map_pixels"]}
{"id": "C19", "title": "Spot map takes the coolest temperature", "statement": "SpotCollection.map_pixels assigns to every pixel the coolest of the photosphere temperature and the temperatures of all umbra/penumbra regions covering it, independent of the order of the spots.", "quantifier": "every spot list, pixel, temperature assignment", "why_tests_cant": "all overlaps and orders", "anchors": ["vspec_vsm/spots.py:SpotCollection.map_pixels", "vspec_vsm/star.py:Star.map"]}
{"id": "C20", "title": "Spot area stays within physical bounds", "statement": "Aging a StarSpot never makes its area negative and never lifts it above area_max; while growing the area never decreases and after the maximum it never increases.", "quantifier": "every spot with 0 < area_current <= area_max, growth_rate >= 0, decay_rate >= 0, every sequence of non-negative time steps", "why_tests_cant": "all histories of steps", "anchors": ["vspec_vsm/spots.py:StarSpot.age"]}
{"id": "C21", "title": "Spot collection evolution does not depend on the time step", "statement": "SpotCollection.age(t1) followed by age(t2) leaves the same spots with the same areas as age(t1+t2), and hence any two subdivisions of the same total duration agree.", "quantifier": "every collection of spots with positive areas (a spot that still grows may be larger than area_max), growth_rate >= 0, decay_rate >= 0, and every two non-empty schedules of non-negative steps", "why_tests_cant": "all step schedules", "anchors": ["vspec_vsm/spots.py:SpotCollection.age", "vspec_vsm/spots.py:StarSpot.age", "vspec_vsm/spots.py:SpotCollection.clean_spotlist"]}
{"id": "C22", "title": "Aging removes exactly the decayed spots", "statement": "After SpotCollection.age every remaining spot that is not growing has strictly positive area, every removed spot had decayed to area <= 0, and the survivors keep their order.", "quantifier": "every collection and time", "why_tests_cant": "all collections", "anchors": ["vspec_vsm/spots.py:SpotCollection.clean_spotlist", "vspec_vsm/spots.py:SpotCollection.age"]}
{"id": "C23", "title": "Spot lifetime", "statement": "A growing spot with 0 < a0 <= area_max, growth_rate g > 0 and decay_rate w > 0 is still in the collection after a history of age calls exactly when the total elapsed time is less than log(area_max/a0)/log(1+g) + area_max/w; once aged, the same holds for a new spot with a0 > area_max.", "quantifier": "every such spot and every schedule of non-negative steps", "why_tests_cant": "all schedules", "anchors": ["vspec_vsm/spots.py:StarSpot.age", "vspec_vsm/spots.py:SpotCollection.age"]}
{"id": "C24", "title": "Spot coverage is the area fraction of the union of spots", "statement": "SpotCollection.get_coverage is the summed area of pixels lying in at least one spot divided by the total area: it is in [0,1], 0 without spots, never decreases when a spot is added, and is at most the sum of the coverages of the single spots.", "quantifier": "every collection, grid and stellar radius", "why_tests_cant": "all collections", "anchors": ["vspec_vsm/spots.py:SpotCollection.get_coverage", "vspec_vsm/spots.py:SpotCollection.map_pixels"]}
{"id": "C25", "title": "Spot generator statistics agree with spot evolution", "statement": "SpotGenerator.mean_lifetime is the time for which a spot of peak area dist_area_mean lives under StarSpot.age, and mean_area*mean_lifetime is the time integral of its area.", "quantifier": "every generator with 0 < init_area <= dist_area_mean, growth_rate > 0, decay_rate > 0", "why_tests_cant": "continuous parameter space", "anchors": ["vspec_vsm/spots.py:SpotGenerator.mean_lifetime", "vspec_vsm/spots.py:SpotGenerator.mean_area", "vspec_vsm/spots.py:StarSpot.age"]}
{"id": "C26", "title": "Expected spot births balance the requested coverage", "statement": "get_n_spots_to_birth is such that births per unit time * mean_lifetime * mean_area = coverage * 4 pi R^2 for non-static generators; it is non-negative and additive in the duration, and is 0 for static generators and for SpotGenerator.off().", "quantifier": "every generator with 0 < init_area <= dist_area_mean and growth_rate > 0 (or static), coverage >= 0, duration >= 0, and every stellar radius", "why_tests_cant": "continuous parameter space", "anchors": ["vspec_vsm/spots.py:SpotGenerator.get_n_spots_to_birth", "vspec_vsm/spots.py:SpotGenerator.off"]}
{"id": "C27", "title": "Generated spots are well formed", "statement": "generate_spots(n) returns exactly n growing spots carrying the generator's temperatures, rates, initial area and grid, with positive maximum area and positive area ratio; with the 'iso' distribution latitudes are in [-90,90] and longitudes in [0,360); unknown distributions raise ValueError.", "quantifier": "every n and every sequence of random draws in the ranges of the numpy generators", "why_tests_cant": "all random outcomes", "anchors": ["vspec_vsm/spots.py:SpotGenerator.generate_spots", "vspec_vsm/spots.py:SpotGenerator.get_coordinates"]}
{"id": "C28", "title": "Mature spots reach the requested coverage", "statement": "generate_mature_spots(coverage,R) raises ValueError exactly for coverage outside [0,1]; when it returns, the solid angle subtended by the returned spots is at least coverage*4pi while without the last one it is less; coverage 0 returns no spots.", "quantifier": "every coverage, radius and sequence of random draws", "why_tests_cant": "all random outcomes; loop of unbounded length", "anchors": ["vspec_vsm/spots.py:SpotGenerator.generate_mature_spots"]}
{"id": "C29", "title": "Spots are always measured on the star's grid", "statement": "For every star and every history of add_spot, birth_spots, generate_mature_spots and age, every spot of the star has the star's grid and its pre-computed distance array is the one of that grid, so the surface map never mixes grids.", "quantifier": "every history of operations", "why_tests_cant": "all histories", "anchors": ["vspec_vsm/spots.py:SpotCollection.add_spot", "vspec_vsm/spots.py:StarSpot.set_gridmaker", "vspec_vsm/star.py:Star.__init__", "vspec_vsm/star.py:Star.birth_spots"]}
{"id": "C30", "title": "Projected spot fraction", "statement": "surface_fraction is non-negative, and is 0 whenever the whole spot is behind the limb (angle from disk centre minus angular radius at least 90 degrees).", "quantifier": "every spot, observer, n_points >= 2", "why_tests_cant": "continuous domain", "anchors": ["vspec_vsm/spots.py:StarSpot.surface_fraction"]}
{"id": "C31", "title": "Facula radius stays within bounds", "statement": "For every history of age calls with non-negative times a facula created with 0 < radius <= r_max keeps 0 < radius <= r_max, grows while growing and shrinks afterwards.", "quantifier": "every facula and history", "why_tests_cant": "all histories", "anchors": ["vspec_vsm/faculae.py:Facula.age"]}
{"id": "C32", "title": "Facula evolution does not depend on the time step", "statement": "FaculaCollection.age(t1) followed by age(t2) gives the same faculae with the same radii as age(t1+t2).", "quantifier": "every collection with positive radii and lifetimes, every sequence of non-negative steps", "why_tests_cant": "all step schedules", "anchors": ["vspec_vsm/faculae.py:Facula.age", "vspec_vsm/faculae.py:FaculaCollection.age", "vspec_vsm/faculae.py:FaculaCollection.clean_faclist"]}
{"id": "C33", "title": "Facula lifetime is two lifetimes", "statement": "A newly generated facula (radius r_max/e^2, growing) is still in the collection after a history of age calls exactly when the total elapsed time is less than 2*lifetime; it reaches r_max exactly at total time lifetime.", "quantifier": "every facula from the generator and every schedule of steps", "why_tests_cant": "all schedules", "anchors": ["vspec_vsm/faculae.py:Facula.age", "vspec_vsm/faculae.py:FaculaCollection.clean_faclist", "vspec_vsm/faculae.py:FaculaGenerator.generate_faculae"]}
{"id": "C34", "title": "Facula wall and floor share the projected area", "statement": "effective_area returns non-negative wall and floor areas adding up to pi r^2 cos(angle) for every angle in [0,90) degrees, and fractional_effective_area returns fractions in [0,1] that add up to 1.", "quantifier": "every facula of positive radius whose rounded wall and floor temperatures differ, every angle in [0,90) degrees", "why_tests_cant": "continuous domain", "anchors": ["vspec_vsm/faculae.py:Facula.effective_area", "vspec_vsm/faculae.py:Facula.fractional_effective_area"]}
{"id": "C35", "title": "Faculae brighten towards the limb", "statement": "The wall fraction of a facula never decreases as the angle from disk centre grows from 0 to 90 degrees; it is 0 at disk centre when the floor is visible and 1 once depth*tan(angle) >= 2*radius.", "quantifier": "every facula of positive radius and depth >= 0 whose rounded wall and floor temperatures differ, every pair of angles in [0,90) degrees", "why_tests_cant": "continuous domain; tests compare two angles", "anchors": ["vspec_vsm/faculae.py:Facula.effective_area", "vspec_vsm/helpers.py:calc_circ_fraction_inside_unit_circle"]}
{"id": "C36", "title": "Wall and floor are reported separately", "statement": "Whenever effective_area accepts a facula (wall and floor temperature differ) the result has two entries, wall first and floor second, so Star.add_faculae_to_map can unpack it.", "quantifier": "every facula", "why_tests_cant": "continuous domain", "anchors": ["vspec_vsm/faculae.py:Facula.effective_area", "vspec_vsm/star.py:Star.add_faculae_to_map"]}
{"id": "C37", "title": "Facula mean area agrees with facula evolution", "statement": "FaculaGenerator.mean_area is the time average over its 2*lifetime of the area pi*radius^2 of a generated facula of peak radius dist_r_peak.", "quantifier": "every generator", "why_tests_cant": "continuous parameter space", "anchors": ["vspec_vsm/faculae.py:FaculaGenerator.mean_area", "vspec_vsm/faculae.py:Facula.age"]}
{"id": "C38", "title": "Expected facula births balance the requested coverage", "statement": "get_n_faculae_expected/time * 2*dist_life_peak * mean_area = coverage*4 pi R^2; it is non-negative, additive in time, and 0 for FaculaGenerator.off().", "quantifier": "every generator, duration and radius", "why_tests_cant": "continuous parameter space", "anchors": ["vspec_vsm/faculae.py:FaculaGenerator.get_n_faculae_expected", "vspec_vsm/faculae.py:FaculaGenerator.off"]}
{"id": "C39", "title": "Adding faculae puts them on the collection's grid", "statement": "FaculaCollection.add_faculae(f) never fails on Facula objects: afterwards the collection holds the old faculae followed by the new ones, all carrying the collection's grid.", "quantifier": "every collection and every sequence of faculae", "why_tests_cant": "all grids", "anchors": ["vspec_vsm/faculae.py:FaculaCollection.add_faculae", "vspec_vsm/coordinate_grid.py:RectangularGrid.__eq__", "vspec_vsm/star.py:Star.add_fac"]}
{"id": "C40", "title": "Faculae overlay of the surface map", "statement": "add_faculae_to_map changes only pixels inside some facula; each such pixel gets the clipped wall or floor temperature of the last facula containing it, and wall pixels are those nearest the limb.", "quantifier": "every star, observer and list of faculae", "why_tests_cant": "all overlaps", "anchors": ["vspec_vsm/star.py:Star.add_faculae_to_map"]}
{"id": "C41", "title": "Wall pixel count reflects the wall fraction", "statement": "For a facula covering n pixels with pairwise different mu the share of pixels painted with the wall temperature differs from the wall fraction by at most 1/n.", "quantifier": "every pixel set with distinct mu, every fraction in [0,1]", "why_tests_cant": "all pixel sets; percentile interpolation", "anchors": ["vspec_vsm/star.py:Star.add_faculae_to_map"]}
{"id": "C42", "title": "Flare light curve shape", "statement": "The area curve of a flare is non-negative, at most the peak area, equals the peak area at tpeak, and vanishes outside (tpeak-fwhm, tpeak+20 fwhm).", "quantifier": "every flare with fwhm > 0 and amplitude >= 0, every time", "why_tests_cant": "continuous domain", "anchors": ["vspec_vsm/xoflares.py:_flaremodelnp", "vspec_vsm/xoflares.py:get_light_curvenp", "vspec_vsm/flares.py:StellarFlare.areacurve"]}
{"id": "C43", "title": "Flare energy conservation", "statement": "The closed-form flare integral equals the integral over all time of the flare light curve, hence sigma*Teff^4 times the time-integrated area curve of a StellarFlare equals its energy.", "quantifier": "every flare with fwhm > 0, Teff != 0", "why_tests_cant": "integral identity over a continuum", "anchors": ["vspec_vsm/xoflares.py:_flareintegralnp", "vspec_vsm/flares.py:StellarFlare.calc_peak_area", "vspec_vsm/flares.py:StellarFlare.areacurve"]}
{"id": "C44", "title": "Flare energy distribution", "statement": "quantile_func is the inverse of cdf: for X in [0,1) it returns an energy >= min_energy with cdf equal to X, it is increasing, and it raises ValueError exactly when some X is outside [0,1).", "quantifier": "every alpha < 0, min_energy > 0 and X", "why_tests_cant": "continuous domain", "anchors": ["vspec_vsm/flares.py:FlareGenerator.quantile_func", "vspec_vsm/flares.py:FlareGenerator.cdf"]}
{"id": "C45", "title": "Flare frequency follows the energy distribution", "statement": "get_nexp_greater_than(E,t) = get_ntotal(t)*(1-cdf(E)) for every E, it is additive in t, non-increasing in E, and log10 of the daily frequency is beta + alpha*log10(E/erg).", "quantifier": "every generator with alpha < 0, energy > 0 and duration", "why_tests_cant": "continuous domain", "anchors": ["vspec_vsm/flares.py:FlareGenerator.frequency_greater_than", "vspec_vsm/flares.py:FlareGenerator.get_nexp_greater_than", "vspec_vsm/flares.py:FlareGenerator.cdf"]}
{"id": "C46", "title": "Flare peak times", "statement": "get_peaks(n) for n >= 1 never raises and returns exactly n non-negative, non-decreasing times whatever the random draws.", "quantifier": "every n >= 1, every mean cluster size >= 0 and every sequence of draws", "why_tests_cant": "all random outcomes", "anchors": ["vspec_vsm/flares.py:FlareGenerator.get_peaks"]}
{"id": "C47", "title": "No contributing flare is dropped", "statement": "Every flare whose area is non-zero at some instant of [tstart,tfinish] is returned by get_flares_in_timeperiod, so dropped flares contribute exactly nothing; the order of the flares is kept.", "quantifier": "every list of flares with fwhm >= 0 and every time window", "why_tests_cant": "all flares and windows", "anchors": ["vspec_vsm/flares.py:FlareCollection.mask", "vspec_vsm/flares.py:FlareCollection.get_flares_in_timeperiod"]}
{"id": "C48", "title": "Visible flares are those on the near hemisphere", "statement": "get_visible_flares_in_timeperiod returns, in order, exactly the flares of get_flares_in_timeperiod that are less than 90 degrees away from the sub-observer point.", "quantifier": "every flare list, window and observer", "why_tests_cant": "continuous domain", "anchors": ["vspec_vsm/flares.py:FlareCollection.get_visible_flares_in_timeperiod"]}
{"id": "C49", "title": "Active flares contribute time-area", "statement": "get_flare_integral_in_timeperiod returns one entry per visible flare with non-negative time-area, and the entry is positive whenever the flare has positive area throughout the window.", "quantifier": "every flare list and window with tstart < tfinish", "why_tests_cant": "all windows", "anchors": ["vspec_vsm/flares.py:FlareCollection.get_flare_integral_in_timeperiod", "vspec_vsm/flares.py:StellarFlare.get_timearea"]}
{"id": "C50", "title": "Light curves superpose", "statement": "The light curve of several flares is the sum of the single light curves: independent of the order of the flares, and concatenating lists adds curves.", "quantifier": "every list of flares and times", "why_tests_cant": "all lists", "anchors": ["vspec_vsm/xoflares.py:multiflaremodelnp", "vspec_vsm/xoflares.py:get_light_curvenp"]}
{"id": "C51", "title": "Disabled flares stay disabled", "statement": "FlareGenerator.off() generates no flare for any duration, and generate_flare_series otherwise returns exactly as many flares as drawn, each with energy >= min_energy and fwhm > 0.", "quantifier": "every duration and random outcome; generators with alpha < 0, min_energy > 0, dist_fwhm_mean > 0, cluster_size >= 0 and non-negative widths of the normal distributions", "why_tests_cant": "all random outcomes", "anchors": ["vspec_vsm/flares.py:FlareGenerator.off", "vspec_vsm/flares.py:FlareGenerator.generate_flare_series"]}
{"id": "C52", "title": "Flare energy density", "statement": "FlareGenerator.pdf(E) returns the probability density, i.e. the derivative of cdf at E.", "quantifier": "every energy >= min_energy", "why_tests_cant": "continuous domain", "anchors": ["vspec_vsm/flares.py:FlareGenerator.pdf", "vspec_vsm/flares.py:FlareGenerator.cdf"]}
{"id": "C53", "title": "Random coordinates lie on the sphere", "statement": "Isotropic coordinate generators of spots, faculae and flares return latitudes in [-90,90] and longitudes in [0,360), and the fraction of the unit interval mapped north of a latitude equals the fraction of the sphere north of it.", "quantifier": "every draw in [0,1)", "why_tests_cant": "all random outcomes", "anchors": ["vspec_vsm/flares.py:FlareGenerator.gen_coords", "vspec_vsm/faculae.py:FaculaGenerator.get_coords", "vspec_vsm/spots.py:SpotGenerator.get_coordinates"]}
{"id": "C54", "title": "Granulation coverage is a fraction", "statement": "Star.get_granulation_coverage returns values in [0,1] (never NaN) for every Gaussian-process sample, including NaN and infinite samples, one per time.", "quantifier": "every sample array", "why_tests_cant": "all random outcomes incl. NaN", "anchors": ["vspec_vsm/granules.py:save_cast_coverage", "vspec_vsm/star.py:Star.get_granulation_coverage"]}
{"id": "C55", "title": "Granulation kernel is a covariance function", "statement": "GranulationKernel.evaluate is symmetric, stationary, maximal in absolute value at zero lag, and positive semi-definite for every finite set of times.", "quantifier": "every finite set of times and weights", "why_tests_cant": "all finite sets", "anchors": ["vspec_vsm/granules.py:GranulationKernel.evaluate"]}
{"id": "C56", "title": "Granulation can be switched off by its parameters", "statement": "get_granulation_coverage returns all zeros when dteff is 0, and also when mean and amplitude are 0.", "quantifier": "every granulation and time array", "why_tests_cant": "all parameter combinations", "anchors": ["vspec_vsm/star.py:Star.get_granulation_coverage", "vspec_vsm/granules.py:Granulation.__init__"]}
{"id": "C57", "title": "Coverage fractions add to one", "statement": "calc_coverage returns total fractions that add up to 1 over all temperatures, for every arrangement of spots and faculae and every granulation fraction.", "quantifier": "every star, map, observer, granulation fraction", "why_tests_cant": "all maps", "anchors": ["vspec_vsm/star.py:Star.calc_coverage"]}
{"id": "C58", "title": "Coverage fractions are fractions", "statement": "With physical limb darkening every total fraction is in [0,1] and the covered fraction of each temperature is between 0 and its total fraction.", "quantifier": "every star, observer, planet position, granulation fraction in [0,1]", "why_tests_cant": "all maps", "anchors": ["vspec_vsm/star.py:Star.calc_coverage"]}
{"id": "C59", "title": "calc_coverage always answers", "statement": "calc_coverage returns a result (no exception, no NaN) for every star whose disk has positive limb-darkened area.", "quantifier": "every star and observer", "why_tests_cant": "all maps", "anchors": ["vspec_vsm/star.py:Star.calc_coverage"]}
{"id": "C60", "title": "Granulation only moves photosphere", "statement": "Changing granulation_fraction leaves every temperature other than the photosphere and the granulation temperature unchanged, and moves exactly that fraction of the photosphere to the granulation temperature.", "quantifier": "every map and fraction", "why_tests_cant": "all maps", "anchors": ["vspec_vsm/star.py:Star.calc_coverage"]}
{"id": "C61", "title": "Some surface is always visible", "statement": "For every rectangular grid with nlat >= 4, nlon >= 3 and every sub-observer point the projected limb-darkened area of the disk is positive, so the normalisation never divides by zero.", "quantifier": "every such grid and observer", "why_tests_cant": "all grids and observers", "anchors": ["vspec_vsm/star.py:Star.area_projection_coefficient", "vspec_vsm/star.py:Star.calc_coverage"]}
{"id": "C62", "title": "Limb darkening mask", "statement": "For physical coefficients (u1 >= 0, u1+2 u2 >= 0, u1+u2 <= 1) ld_mask_for_plotting is in [0,1], is 1 at disk centre, non-decreasing in mu on the visible side and 0 behind the star; ld_mask with the same coefficients equals the former minus (1-mu) on the visible side.", "quantifier": "every coefficient pair and mu", "why_tests_cant": "continuous domain", "anchors": ["vspec_vsm/star.py:Star.ld_mask", "vspec_vsm/star.py:Star.ld_mask_for_plotting"]}
{"id": "C63", "title": "Transit mask", "statement": "get_transit_mask returns for every pixel a number in [0,1]; pixels on the far side or farther from the planet than its radius plus two projected pixel radii get 0, pixels inside by more than two projected radii get 1; without transit all are 0.", "quantifier": "every grid, observer, planet", "why_tests_cant": "continuous domain", "anchors": ["vspec_vsm/star.py:Star.get_transit_mask"]}
{"id": "C64", "title": "Visible planet fraction", "statement": "The second result of get_transit_mask is in [0,1], is 1 unless the planet is behind the star and overlaps the disk, and then is one minus the overlapped area share; ValueError is raised only for planets larger than the star.", "quantifier": "every orbit, phase, inclination and radius", "why_tests_cant": "continuous domain", "anchors": ["vspec_vsm/star.py:Star.get_transit_mask", "vspec_vsm/star.py:Star.get_pl_frac"]}
{"id": "C65", "title": "Average temperature", "statement": "average_teff returns the fourth-power mean of the temperatures weighted with their coverage, hence a value between the coolest and hottest temperature.", "quantifier": "every star and observer", "why_tests_cant": "all maps", "anchors": ["vspec_vsm/star.py:Star.average_teff"]}
{"id": "C66", "title": "Star construction unifies grids", "statement": "After Star(...) the star, its spot and facula collections, all their members and both generators carry the same grid, whatever grids they were built with.", "quantifier": "every combination of grids", "why_tests_cant": "all combinations", "anchors": ["vspec_vsm/star.py:Star.__init__"]}
{"id": "C67", "title": "A quiet star stays quiet", "statement": "A star built without generators never acquires spots, faculae or flares under any history of birth_spots, birth_faculae, get_flares_over_observation and age.", "quantifier": "every history", "why_tests_cant": "all histories", "anchors": ["vspec_vsm/star.py:Star.birth_spots", "vspec_vsm/star.py:Star.birth_faculae", "vspec_vsm/star.py:Star.get_flares_over_observation"]}
{"id": "C68", "title": "Aging touches each feature once", "statement": "Star.age(t) ages every spot and facula of the star by exactly t.", "quantifier": "every star, including collections holding the same object twice", "why_tests_cant": "aliasing over all heaps", "anchors": ["vspec_vsm/star.py:Star.age", "vspec_vsm/spots.py:SpotCollection.age"]}
{"id": "C69", "title": "Hot walls are hotter than cool floors on the map", "statement": "A facula whose wall is hotter than its floor is painted with a wall temperature not below its floor temperature; the wall is not painted cooler than the photosphere when its temperature excess is positive.", "quantifier": "every star temperature and facula", "why_tests_cant": "continuous domain", "anchors": ["vspec_vsm/star.py:Star.add_faculae_to_map", "vspec_vsm/helpers.py:clip_teff"]}
{"id": "C70", "title": "Faculae overlay always answers", "statement": "add_faculae_to_map returns a map for every star whose spot map exists and whose faculae have positive radius, rounded wall and floor temperatures that differ and centres not exactly 90 degrees from disk centre.", "quantifier": "every star, observer and list of such faculae", "why_tests_cant": "all maps and observers", "anchors": ["vspec_vsm/star.py:Star.add_faculae_to_map", "vspec_vsm/faculae.py:Facula.fractional_effective_area"]}
{"id": "C71", "title": "Some surface is always visible on a spiral grid", "statement": "For every spiral grid with at least 5 points and every sub-observer point some pixel faces the observer, and with physical limb darkening the weighted disk area is positive, so the normalisation of calc_coverage never divides by zero.", "quantifier": "every spiral grid with n_points >= 5 and every observer", "why_tests_cant": "all grids and observers; needs an argument about the golden angle", "anchors": ["vspec_vsm/coordinate_grid.py:SpiralGrid.grid", "vspec_vsm/star.py:Star.area_projection_coefficient", "vspec_vsm/star.py:Star.calc_coverage"]}
{"id": "C72", "title": "Flare time-area accuracy", "statement": "For a window of at least 20 minutes the time-area of a flare is non-negative, at most peak area times the window length, and differs from the exact integral of the area curve over the window by at most peak area times one sampling step, which is shorter than 30 minutes.", "quantifier": "every flare with fwhm > 0, energy >= 0, Teff != 0 and every window of at least 20 minutes", "why_tests_cant": "integral over a continuum of flares and windows", "anchors": ["vspec_vsm/flares.py:StellarFlare.get_timearea", "vspec_vsm/flares.py:StellarFlare.areacurve"]}
{"id": "C73", "title": "Flares come in order of time", "statement": "generate_flare_series over a positive duration returns the flares in order of their peak times, with temperatures mean + sigma*draw and widths mean*10^(logsigma*draw); with the same random draws another duration gives the same flares with all peak times stretched by the ratio of the durations.", "quantifier": "every generator with alpha < 0, min_energy > 0, dist_fwhm_mean > 0, cluster_size >= 0, every pair of positive durations and every random outcome", "why_tests_cant": "all random outcomes; a relation between two runs", "anchors": ["vspec_vsm/flares.py:FlareGenerator.generate_flare_series", "vspec_vsm/flares.py:FlareGenerator.get_peaks"]}
{"id": "C74", "title": "Generated flares peak within the observation", "statement": "All flares returned by generate_flare_series(time) peak between 0 and time.", "quantifier": "every generator, duration and random outcome", "why_tests_cant": "all random outcomes", "anchors": ["vspec_vsm/flares.py:FlareGenerator.generate_flare_series", "vspec_vsm/flares.py:FlareGenerator.get_peaks", "vspec_vsm/star.py:Star.get_flares_over_observation"]}
{"id": "C75", "title": "Exposure-averaged light curve", "statement": "With an exposure time the light curve is the mean of the instantaneous curve over an odd number of evenly spaced instants symmetric about the nominal time and spanning the exposure; it lies between the bounds of the instantaneous curve over the exposure, equals it for zero exposure time, and is additive in the flares.", "quantifier": "every list of flares with fwhm > 0 and real amplitudes, every time, exposure >= 0 and oversample >= 2", "why_tests_cant": "continuous domain", "anchors": ["vspec_vsm/xoflares.py:get_light_curvenp"]}
{"id": "C76", "title": "Flare integrals follow the last generated series", "statement": "get_flare_int_over_timeperiod raises until get_flares_over_observation has been called; afterwards it reports the integrals of the series drawn by the most recent such call, unaffected by any other operation before, in between or afterwards.", "quantifier": "every history of operations on a star", "why_tests_cant": "all histories", "anchors": ["vspec_vsm/star.py:Star.get_flares_over_observation", "vspec_vsm/star.py:Star.get_flare_int_over_timeperiod", "vspec_vsm/star.py:Star.__init__"]}
{"id": "C77", "title": "Operations touch only what they should", "statement": "No history of operations changes the temperature, radius, period, grid, limb darkening, granulation or generators of a star; without aging the old spots and faculae stay first and in order; operations that do not add spots (faculae) affect the spots (faculae) only by aging them.", "quantifier": "every successful history of operations", "why_tests_cant": "all histories", "anchors": ["vspec_vsm/star.py:Star.add_spot", "vspec_vsm/star.py:Star.add_fac", "vspec_vsm/star.py:Star.birth_spots", "vspec_vsm/star.py:Star.birth_faculae", "vspec_vsm/star.py:Star.generate_mature_spots", "vspec_vsm/star.py:Star.age"]}
{"id": "C78", "title": "Stars stay well formed", "statement": "Every history of operations with sensible arguments keeps a star well formed: each spot has a real area between 0 and its maximum, each facula a positive radius not above its maximum; right after aging no spot has area 0. If drawn peak areas may be below the initial area, the same holds except that new spots may be larger than their maximum until they are aged.", "quantifier": "every well-formed star with good generators (decaying spots also grow; see C157 for the others) and every history (aging times >= 0; for the first statement drawn peak areas not below the initial area)", "why_tests_cant": "inductive invariant over all histories", "anchors": ["vspec_vsm/star.py:Star.age", "vspec_vsm/star.py:Star.birth_spots", "vspec_vsm/star.py:Star.generate_mature_spots", "vspec_vsm/spots.py:SpotCollection.clean_spotlist", "vspec_vsm/faculae.py:FaculaCollection.clean_faclist"]}
{"id": "C79", "title": "Rotational symmetry of calc_coverage", "statement": "Rotating everything (longitudes of all spots and faculae and of the sub-observer point) by any whole number of grid steps in longitude leaves the result of calc_coverage exactly unchanged, errors included.", "quantifier": "every star on a rectangular grid, every number of steps, every observer strictly between the poles, every granulation fraction and planet", "why_tests_cant": "relation between two runs over all states and inputs", "anchors": ["vspec_vsm/star.py:Star.calc_coverage", "vspec_vsm/star.py:Star.add_faculae_to_map", "vspec_vsm/star.py:Star.get_transit_mask", "vspec_vsm/helpers.py:proj_ortho", "vspec_vsm/coordinate_grid.py:RectangularGrid.grid"]}
{"id": "C80", "title": "Full turns of longitude do not matter", "statement": "Adding any number of full turns to the sub-observer longitude and, independently, to the longitude of each spot and facula leaves the result of calc_coverage exactly unchanged.", "quantifier": "every star on every grid, every observer including the poles, every planet", "why_tests_cant": "relation between runs over all states; NaN and comparison branches such as lon == lon0", "anchors": ["vspec_vsm/star.py:Star.calc_coverage", "vspec_vsm/helpers.py:proj_ortho", "vspec_vsm/helpers.py:get_angle_between"]}
{"id": "C81", "title": "North-south mirror symmetry of calc_coverage", "statement": "Changing the sign of the latitudes of all spots and faculae and of the sub-observer point and replacing the inclination i by 180 deg - i leaves the result of calc_coverage exactly unchanged.", "quantifier": "every star on a rectangular grid, every observer including the poles, every planet", "why_tests_cant": "relation between two runs over all states and inputs", "anchors": ["vspec_vsm/star.py:Star.calc_coverage", "vspec_vsm/star.py:Star.get_transit_mask", "vspec_vsm/helpers.py:proj_ortho"]}
{"id": "C82", "title": "East-west mirror symmetry of calc_coverage", "statement": "Changing the sign of the longitudes of all spots and faculae and of the sub-observer point and of the orbital phase leaves the result of calc_coverage exactly unchanged.", "quantifier": "every star on a rectangular grid, every observer including the poles, every planet", "why_tests_cant": "relation between two runs over all states and inputs", "anchors": ["vspec_vsm/star.py:Star.calc_coverage", "vspec_vsm/star.py:Star.get_transit_mask", "vspec_vsm/helpers.py:proj_ortho"]}
{"id": "C83", "title": "Scale invariance of calc_coverage", "statement": "Multiplying every length of the problem by the same positive number (stellar radius, sizes of spots and faculae, planet radius and orbit; areas by its square, temperature slopes by its inverse) leaves the result of calc_coverage exactly unchanged.", "quantifier": "every star on every grid with finite spot areas and facula radii, every observer and planet, every factor > 0", "why_tests_cant": "relation between two runs over all states and inputs", "anchors": ["vspec_vsm/star.py:Star.calc_coverage", "vspec_vsm/spots.py:StarSpot.angular_radius", "vspec_vsm/faculae.py:Facula.fractional_effective_area", "vspec_vsm/faculae.py:Facula.angular_radius"]}
{"id": "C84", "title": "Seen pole-on the sub-observer longitude is irrelevant", "statement": "For an observer above a pole calc_coverage does not depend on the sub-observer longitude, whatever planet passes (so a star seen pole-on does not rotate under a transiting planet).", "quantifier": "every star, grid, planet, granulation fraction and pair of longitudes", "why_tests_cant": "relation between two runs over all states", "anchors": ["vspec_vsm/star.py:Star.calc_coverage", "vspec_vsm/helpers.py:proj_ortho"]}
{"id": "C85", "title": "A bigger planet covers no less", "statement": "Increasing planet_radius (everything else equal) never lowers the covered share of any pixel of get_transit_mask nor the covered fraction of any temperature of calc_coverage, and does not change the total fractions.", "quantifier": "every star, observer, orbit, phase, inclination, granulation fraction in [0,1] and pair of radii r <= r'", "why_tests_cant": "relation between two runs; monotonicity through three branches and a numerical integral", "anchors": ["vspec_vsm/star.py:Star.get_transit_mask", "vspec_vsm/star.py:Star.calc_coverage"]}
{"id": "C86", "title": "Without a transit nothing is covered", "statement": "If the planet is behind the star or its centre is farther from the disk centre than 1 + 2 planet radii, every covered fraction of calc_coverage is exactly 0 while all temperatures are still listed; if it is in front of the star or that far away the visible planet fraction is 1; the total fractions never depend on the planet.", "quantifier": "every star, observer, planet and granulation fraction", "why_tests_cant": "all geometries", "anchors": ["vspec_vsm/star.py:Star.calc_coverage", "vspec_vsm/star.py:Star.get_transit_mask"]}
{"id": "C87", "title": "Adding spots only cools", "statement": "Adding spots to a star never warms a pixel of the surface map: a pixel that changes lies in no facula and takes the umbra or penumbra temperature of a new spot that contains it; the photosphere share reported by calc_coverage never increases.", "quantifier": "every star, list of spots measured on its grid, observer; for the share also temperatures more than 0.01 K apart", "why_tests_cant": "relation between two runs over all states", "anchors": ["vspec_vsm/star.py:Star.add_spot", "vspec_vsm/star.py:Star.add_faculae_to_map", "vspec_vsm/star.py:Star.calc_coverage"]}
{"id": "C88", "title": "The order of features does not matter", "statement": "Listing the spots in another order leaves the result of calc_coverage unchanged (umbrae not hotter than penumbrae); so does listing the faculae in another order if no pixel lies in two of them, for example if their outlines do not overlap.", "quantifier": "every star, every permutation, observer and planet", "why_tests_cant": "all permutations", "anchors": ["vspec_vsm/star.py:Star.calc_coverage", "vspec_vsm/star.py:Star.add_faculae_to_map", "vspec_vsm/spots.py:SpotCollection.map_pixels"]}
{"id": "C89", "title": "Mature spots: exactly as many as needed", "statement": "generate_mature_spots(coverage, R) returns the spots made, in order, from the first N batches of random numbers, where N is the first number of spots whose summed pi*theta^2 is not below 4 pi coverage; it never returns exactly when no number of spots gets there.", "quantifier": "every generator, coverage in [0,1], radius and sequence of random draws", "why_tests_cant": "unbounded loop over all random outcomes", "anchors": ["vspec_vsm/spots.py:SpotGenerator.generate_mature_spots"]}
{"id": "C90", "title": "Mature spots are aged spots of the generator", "statement": "Each spot of generate_mature_spots has the generator's temperatures, rates and grid and its own log-normal peak area; for a static generator its area is A0 + x (Amax - A0) and it still counts as growing, otherwise it is a new spot aged by x*mean_lifetime; if the spots are static or grow at a positive rate, areas stay between 0 and the peak area; for static generators with peak areas not below A0 the loop ends after at most 1 + 4 pi coverage R^2/A0 spots.", "quantifier": "every generator with positive mean area, every random outcome", "why_tests_cant": "all random outcomes; termination", "anchors": ["vspec_vsm/spots.py:SpotGenerator.generate_mature_spots", "vspec_vsm/spots.py:SpotGenerator.generate_spots", "vspec_vsm/spots.py:StarSpot.age"]}
{"id": "C91", "title": "Grid spacing", "statement": "RectangularGrid.dlat and dlon are the distances between neighbouring rows and columns of the grid; nlat-1 steps lead from pole to pole and nlon steps once around.", "quantifier": "every rectangular grid with nlat >= 2, nlon >= 1", "why_tests_cant": "all grid sizes", "anchors": ["vspec_vsm/coordinate_grid.py:RectangularGrid.dlat", "vspec_vsm/coordinate_grid.py:RectangularGrid.dlon", "vspec_vsm/coordinate_grid.py:RectangularGrid.oned"]}
{"id": "C92", "title": "Pixel areas are cell solid angles", "statement": "The area of a pixel of a rectangular grid is the solid angle of its latitude-longitude cell (the integral of cos over the cell times dlon) divided by 4 pi cos(dlat/2), with the same factor for all pixels; polar pixels have area 0.", "quantifier": "every rectangular grid with nlat >= 3, nlon >= 1, every pixel", "why_tests_cant": "all grid sizes; trigonometric sum", "anchors": ["vspec_vsm/coordinate_grid.py:RectangularGrid.area", "vspec_vsm/coordinate_grid.py:RectangularGrid.dlat"]}
{"id": "C93", "title": "Low-resolution warning", "statement": "get_transit_mask warns exactly when the planet is in front of the star and not clear of the disk, some visible pixel is near it and the mean projected radius of those pixels exceeds half the planet radius; the factor in the message is (2 mean/rp)^2 > 1; a spiral grid of at least 16 (R/r)^2 points never warns.", "quantifier": "every star, observer and planet of positive radius", "why_tests_cant": "all grids and geometries", "anchors": ["vspec_vsm/star.py:Star.get_transit_mask", "vspec_vsm/star.py:InsufficientResolutionWarning"]}
{"id": "C94", "title": "Facula index map", "statement": "FaculaCollection.map_pixels gives each photosphere pixel one plus the index of the last facula containing it and 0 to every other pixel.", "quantifier": "every collection with faculae on its grid, every temperature map", "why_tests_cant": "all overlaps", "anchors": ["vspec_vsm/faculae.py:FaculaCollection.map_pixels", "vspec_vsm/faculae.py:Facula.map_pixels"]}
{"id": "C95", "title": "Every temperature is accounted for", "statement": "Each pixel of the surface map has the photosphere temperature, the umbra or penumbra temperature of a spot covering it (then cooler than the photosphere), or inside a facula the clipped wall or floor temperature of a facula covering it (2300 to 3900 K); the keys of both dictionaries of calc_coverage are exactly the temperatures on the map, visible or not, and the granulation temperature.", "quantifier": "every star with features on its grid, every observer, planet and granulation fraction", "why_tests_cant": "all maps", "anchors": ["vspec_vsm/star.py:Star.calc_coverage", "vspec_vsm/star.py:Star.add_faculae_to_map", "vspec_vsm/spots.py:SpotCollection.map_pixels"]}
{"id": "C96", "title": "Surface fraction is the covered share of the disk", "statement": "surface_fraction returns, up to the error of sampling with N points, the share of the visible stellar disk that is covered by the spot.", "quantifier": "every spot, observer and number of sampling points", "why_tests_cant": "integral over a continuum of spots and observers", "anchors": ["vspec_vsm/spots.py:StarSpot.surface_fraction"]}
{"id": "C97", "title": "Surface fraction laws", "statement": "surface_fraction depends on the observer and the spot position only through their angular distance, never decreases when the spot area grows, and does not change if all lengths are rescaled.", "quantifier": "every spot with area between 0 and the area of the star, every observer and number of points", "why_tests_cant": "relation between two runs over a continuum", "anchors": ["vspec_vsm/spots.py:StarSpot.surface_fraction", "vspec_vsm/spots.py:StarSpot.angular_radius"]}
{"id": "C98", "title": "Coverage measured on a grid is accurate", "statement": "On a rectangular grid get_coverage of one spot, wherever it is, differs from the true fraction area/(4 pi R^2) of the stellar surface by at most pi/(nlat-1) + 2/nlon, so it converges to the true value as the grid is refined; for spots that do not overlap the errors add up at most; overlapping spots can only lower it.", "quantifier": "every rectangular grid with nlat >= 3, nlon >= 1, every position, area between 0 and the area of the star, total-to-umbra area ratio >= 1", "why_tests_cant": "error bound over all grids, positions and sizes; needs the solid angle of a spherical cap", "anchors": ["vspec_vsm/spots.py:SpotCollection.get_coverage", "vspec_vsm/spots.py:StarSpot.map_pixels", "vspec_vsm/spots.py:StarSpot.angular_radius", "vspec_vsm/coordinate_grid.py:RectangularGrid.area"]}
{"id": "C99", "title": "Reported disk fractions are accurate", "statement": "For a star without faculae on a rectangular grid, the fraction that calc_coverage reports for each temperature (photosphere, granulation, umbrae, penumbrae; zero if it is not reported) differs from the true share of the light of the disk - the integral over the sphere of limb darkening times projection over the points of that temperature, with the granulation fraction moved - by at most (1+g) (14 + 4 n)(dlat + dlon)/(1 - u1/3 - u2/6), n the number of spots; the bound goes to zero as the grid is refined.", "quantifier": "every rectangular grid with nlat >= 4, nlon >= 3, every observer, every list of spots that fit on the star with umbra inside and not hotter than the penumbra, physical limb darkening, granulation fraction >= 0, temperatures more than 0.01 K apart", "why_tests_cant": "an error bound against the exact integral over the sphere, for all grids, observers and spot configurations", "anchors": ["vspec_vsm/star.py:Star.calc_coverage", "vspec_vsm/star.py:Star.ld_mask_for_plotting", "vspec_vsm/spots.py:SpotCollection.map_pixels", "vspec_vsm/coordinate_grid.py:RectangularGrid.area"]}
{"id": "C100", "title": "Covered fractions in a transit are accurate", "statement": "For a star without faculae on a rectangular grid, the covered fraction that calc_coverage reports for each temperature (zero if it is not reported) differs from the true share of the light of the disk that comes from points of that temperature behind the planet - planet on the near side, orthographic picture of the point inside the disk of the planet - by at most (1+g) ((14 + 4 n) h + 4 w max(rp, w))/(1 - u1/3 - u2/6), where h is the sum of the grid spacings, w = 1.5 h + 0.0101 and rp the planet radius in stellar radii; outside a transit both are zero. As the grid is refined the bound goes to the part that comes from the rounding of angles in the projection.", "quantifier": "every rectangular grid with nlat >= 4, nlon >= 3, every observer not above a pole (above a pole: at longitude 0), every orbit, planet radius, phase and inclination, every list of spots that fit on the star with umbra inside and not hotter than the penumbra, physical limb darkening, granulation fraction >= 0, temperatures more than 0.01 K apart", "why_tests_cant": "an error bound against the exact integral over the part of the sphere behind the planet, for all grids, observers, orbits and spot configurations", "anchors": ["vspec_vsm/star.py:Star.calc_coverage", "vspec_vsm/star.py:Star.get_transit_mask", "vspec_vsm/helpers.py:proj_ortho", "vspec_vsm/spots.py:SpotCollection.map_pixels"]}
{"id": "C101", "title": "Transit depth", "statement": "The covered fractions that calc_coverage reports add up to the depth of the transit: the integral of the quadratic limb-darkening law over the part of the stellar disk hidden by the planet, divided by the integral over the disk, up to (14 h + 4 w max(rp, w))/(1 - u1/3 - u2/6), h the sum of the grid spacings, w = 1.5 h + 0.0101; with the planet behind the star they add up to zero. Without limb darkening the depth is the fraction of the planet's disk in front of the star, as computed by circ_fraction, times the squared ratio of the radii.", "quantifier": "every star on a rectangular grid with nlat >= 4, nlon >= 3, with any spots, faculae and granulation, every observer not above a pole (above a pole: at longitude 0), every orbit, planet radius, phase and inclination, physical limb darkening, temperatures on the map more than 0.01 K apart", "why_tests_cant": "relates the sums over pixels to an exact area integral for all grids, observers and orbits", "anchors": ["vspec_vsm/star.py:Star.calc_coverage", "vspec_vsm/star.py:Star.get_transit_mask", "vspec_vsm/helpers.py:circ_fraction", "vspec_vsm/helpers.py:proj_ortho"]}
{"id": "C102", "title": "Reported fractions of a star with faculae are accurate", "statement": "For a star with spots and faculae on a rectangular grid, whose faculae show other temperatures than its spots, photosphere and granulation, the total and the covered fraction that calc_coverage reports for the photosphere, the granulation and each spot temperature differ from the true share of the light of the disk that comes from points of that temperature outside all faculae (for the covered fraction: and behind the planet), with the granulation fraction moved, by at most (1+g) times E; the fractions of all temperatures that occur in faculae add up to the share of the light that comes from the faculae within E. For the total fractions E = (14 + 4 n + 2 k) h/(1 - u1/3 - u2/6) with n spots, k faculae and h the sum of the grid spacings; for the covered fractions 4 w max(rp, w)/(1 - u1/3 - u2/6) is added, w = 1.5 h + 0.0101.", "quantifier": "every rectangular grid with nlat >= 4, nlon >= 3, every observer not above a pole (above a pole: at longitude 0), every list of spots that fit on the star with umbra inside and not hotter than the penumbra, every list of faculae with finite radii, every planet, physical limb darkening, granulation fraction >= 0, temperatures more than 0.01 K apart", "why_tests_cant": "an error bound against exact integrals over unions of overlapping caps, for all configurations", "anchors": ["vspec_vsm/star.py:Star.calc_coverage", "vspec_vsm/star.py:Star.add_faculae_to_map", "vspec_vsm/star.py:Star.get_transit_mask", "vspec_vsm/faculae.py:Facula.map_pixels"]}
{"id": "C103", "title": "Reported fractions are accurate on spiral grids", "statement": "For a star with spots and faculae on a spiral grid, the total and covered fractions that calc_coverage reports have the accuracy of C102 with an explicit bound in the number n of points: E = ((24 + 8 k + 4 f) rho + 16 F/n)/(1 - u1/3 - u2/6) for k spots and f faculae, where F is any Fibonacci number and rho = pi sqrt(F/n) + 4 pi/F; for the covered fractions 4 w max(rp, w)/(1 - u1/3 - u2/6) is added, w = 3 rho + 0.0101. So for every tolerance all grids of enough points report every total fraction within the tolerance and every covered fraction within the tolerance plus the inaccuracy of the projection.", "quantifier": "every spiral grid of at least 5 points, every star as in C102, every observer not above a pole (above a pole: at longitude 0), every planet", "why_tests_cant": "needs the distribution of the golden-angle points over the sphere for all n; convergence", "anchors": ["vspec_vsm/star.py:Star.calc_coverage", "vspec_vsm/coordinate_grid.py:SpiralGrid.oned", "vspec_vsm/coordinate_grid.py:SpiralGrid.area", "vspec_vsm/star.py:Star.get_transit_mask"]}
{"id": "C104", "title": "Coverage of overlapping spots is accurate", "statement": "get_coverage of any list of spots, overlapping or not, differs from the fraction of the stellar surface that lies in at least one of them by at most k (dlat/2 + dlon/2) + 2 (1 - cos(dlat/2)) on rectangular grids and by at most k (pi sqrt(F/n) + 4 pi/F) + 4 F/n on spiral grids of n points, for k spots and every Fibonacci number F; for one spot the true fraction is area/(4 pi R^2). Both converge to the truth.", "quantifier": "every list of spots that fit on the star and contain their umbrae, every rectangular grid with nlat >= 3, every non-empty spiral grid", "why_tests_cant": "an error bound against the exact area of a union of caps, for all configurations and grids", "anchors": ["vspec_vsm/spots.py:SpotCollection.get_coverage", "vspec_vsm/spots.py:SpotCollection.map_pixels", "vspec_vsm/coordinate_grid.py:SpiralGrid.oned", "vspec_vsm/coordinate_grid.py:RectangularGrid.area"]}
{"id": "C105", "title": "Population after any history", "statement": "After any sequence of additions by hand, births, generation of mature spots, flare generation and aging, the spots on the star are, in the order in which they were added, exactly those that were there at the beginning or handed to the star by an operation and have not died since; each has the area and growth phase that its closed formula gives for the total time aged since it was added (growth by (1+g)^t up to area_max at T = log(area_max/a)/log(1+g), then area_max - w(t-T), gone at T + area_max/w) and is otherwise as it was added. The same holds for faculae (growth by exp(2t/L) up to r_max, then decay by exp(-2t/L), gone at r_max/e^2, which is two lifetimes after birth).", "quantifier": "every star with well-formed features and good generators, every history of operations with sensible arguments and every outcome of the random draws", "why_tests_cant": "quantifies over all histories and all random draws", "anchors": ["vspec_vsm/star.py:Star.age", "vspec_vsm/star.py:Star.add_spot", "vspec_vsm/star.py:Star.birth_spots", "vspec_vsm/star.py:Star.birth_faculae", "vspec_vsm/spots.py:SpotCollection.age", "vspec_vsm/faculae.py:FaculaCollection.age"]}
{"id": "C106", "title": "What plot_surface draws", "statement": "On a rectangular grid, asked for the size of the grid, plot_surface hands to matplotlib for every pixel, at the latitude and longitude of the pixel in degrees, its temperature on the surface map with faculae; the black cells are the pixels that the transit mask covers by more than one half, so they are visible-side pixels close to the planet and there are none unless the planet is in front of the star; they lie on top of the mesh exactly when the planet is seen entirely; the dark image over the globe has, in the cell that contains the pixel's position, an opacity between 0 and 1 that does not increase towards the disk centre, is 1 behind the limb, below 1 in front and 0 at the brightest pixel. On a spiral grid mesh and black cells come from weighted means with positive weights that do not grow with distance. On rectangular grids a request for another size raises TypeError.", "quantifier": "every star with physical limb darkening on every rectangular grid with nlat >= 4, nlon >= 3 or spiral grid, every observer, orbit, planet, phase and inclination", "why_tests_cant": "covers all pixels, observers, orbits and grids; the plotting test is commented out in the test suite", "anchors": ["vspec_vsm/star.py:Star.plot_surface", "vspec_vsm/coordinate_grid.py:CoordinateGrid.display_grid", "vspec_vsm/star.py:Star.get_transit_mask", "vspec_vsm/star.py:Star.ld_mask_for_plotting"]}
{"id": "C107", "title": "plot_surface with its default size", "statement": "Called with its default size plot_surface draws every star whose surface map and transit mask can be computed, on every grid with pixels, and the shading it hands over is an array over latitude and longitude.", "quantifier": "every star, every grid with pixels, every observer and planet", "why_tests_cant": "holds or fails depending on the grid; quantifies over all grids", "anchors": ["vspec_vsm/star.py:Star.plot_surface", "vspec_vsm/coordinate_grid.py:RectangularGrid._display_grid", "vspec_vsm/coordinate_grid.py:SpiralGrid._display_grid"]}
{"id": "C108", "title": "Features are spread evenly over the sphere", "statement": "With uniform independent draws, each isotropic spot and each facula that is generated falls into any region of the sphere with a probability equal to the region's share of the sphere; for the points within angular distance r of any point this is (1 - cos r)/2.", "quantifier": "every generator, number of features, index and measurable region", "why_tests_cant": "a statement about probability distributions over the whole sphere", "anchors": ["vspec_vsm/spots.py:SpotGenerator.generate_spots", "vspec_vsm/faculae.py:FaculaGenerator.generate_faculae"]}
{"id": "C109", "title": "Flare rate by energy and region", "statement": "The expected number of flares of generate_flare_series(time) with an energy above E in a region of the star is get_nexp_greater_than(E, time) times the share of the sphere taken by the region.", "quantifier": "every flare generator with positive minimal energy and negative slope, every time > 0, energy E not below the minimal energy, measurable region", "why_tests_cant": "an expectation over all random outcomes, for all energies and regions", "anchors": ["vspec_vsm/flares.py:FlareGenerator.generate_flare_series", "vspec_vsm/flares.py:FlareGenerator.get_nexp_greater_than", "vspec_vsm/flares.py:FlareGenerator.quantile_func", "vspec_vsm/flares.py:FlareGenerator.gen_coords"]}
{"id": "C110", "title": "Births on average", "statement": "birth_spots and birth_faculae make, in the mean over the random draws, as many spots (faculae) as get_n_spots_to_birth (get_n_faculae_expected) announces, and each region of the sphere gets its share of them.", "quantifier": "every generator with isotropic positions and a finite expected number >= 0, every time, radius and measurable region", "why_tests_cant": "an expectation over all random outcomes", "anchors": ["vspec_vsm/spots.py:SpotGenerator.birth_spots", "vspec_vsm/faculae.py:FaculaGenerator.birth_faculae"]}
{"id": "C111", "title": "Steady facula coverage", "statement": "In the mean over the random sizes and lifetimes, the faculae born in a time t carry, over their whole lives, an area-time of coverage * 4 pi R^2 * t, so that the coverage asked for is maintained.", "quantifier": "every facula generator with positive peak radius and lifetime, radius and time", "why_tests_cant": "an expectation over log-normal draws of a time integral", "anchors": ["vspec_vsm/faculae.py:FaculaGenerator.get_n_faculae_expected", "vspec_vsm/faculae.py:FaculaGenerator.mean_area", "vspec_vsm/faculae.py:Facula.age"]}
{"id": "C112", "title": "Means of flare temperatures and widths", "statement": "The temperatures of the flares of generate_flare_series have mean dist_teff_mean and standard deviation dist_teff_sigma; the widths have mean dist_fwhm_mean.", "quantifier": "every flare generator, number of flares and index, normal draws", "why_tests_cant": "expectations over all random outcomes", "anchors": ["vspec_vsm/flares.py:FlareGenerator.gen_teffs", "vspec_vsm/flares.py:FlareGenerator.gen_fwhm", "vspec_vsm/flares.py:FlareGenerator.generate_flare_series"]}
{"id": "C113", "title": "Mean time of the last flare", "statement": "For exponential draws of mean one the last flare of generate_flare_series(time) peaks on average between time and 1.5 time after the start, whatever the cluster sizes.", "quantifier": "every flare generator, time > 0, number of flares >= 1, cluster sizes and exponential draws of mean one", "why_tests_cant": "an expectation over all random outcomes", "anchors": ["vspec_vsm/flares.py:FlareGenerator.get_peaks", "vspec_vsm/flares.py:FlareGenerator.generate_flare_series"]}
{"id": "C114", "title": "Spiral grids have no holes", "statement": "Every point of the sphere has a point of SpiralGrid(n) within 3 (pi sqrt(F/n) + 4 pi/F), for every Fibonacci number F; so for every distance all grids of enough points come within that distance of every point of the sphere.", "quantifier": "every number of points n >= 1 and every point of the sphere", "why_tests_cant": "needs the distribution of the golden-angle points over the sphere for all n", "anchors": ["vspec_vsm/coordinate_grid.py:SpiralGrid.oned"]}
{"id": "C115", "title": "Resampling of spiral maps for display is accurate", "statement": "The value that display_grid of a spiral grid gives to a display pixel differs from any number c by at most delta + M n exp(-27 n rho^2/(4 pi)), if the data within 6 rho of the pixel are within delta of c and all data within M of c, rho = pi sqrt(F/n) + 4 pi/F for any Fibonacci number F; samples of a function that changes by at most L per radian are shown with an error of at most L (6 rho + pi n exp(-27 n rho^2/(4 pi))). For every radius and tolerance, all grids of enough points show at every pixel a value within the tolerance of the data within that radius.", "quantifier": "every number of points n >= 1, every display size and every data array", "why_tests_cant": "an error bound for all grids, data and display sizes; convergence", "anchors": ["vspec_vsm/coordinate_grid.py:SpiralGrid._display_grid", "vspec_vsm/coordinate_grid.py:CoordinateGrid.display_grid", "vspec_vsm/coordinate_grid.py:SpiralGrid.oned"]}
{"id": "C116", "title": "Flat radius of a spot", "statement": "StarSpot.radius is the radius of the flat disk with the area of the spot, NaN for a negative area; on a star of radius R it equals 2 R sin(theta/2), the straight distance from the centre of the spot to its edge, theta its angular radius.", "quantifier": "every spot with finite area, every stellar radius > 0", "why_tests_cant": "an identity over a continuum of areas and radii", "anchors": ["vspec_vsm/spots.py:StarSpot.radius", "vspec_vsm/spots.py:StarSpot.angular_radius"]}
{"id": "C117", "title": "Share of the umbra", "statement": "The umbra that map_pixels draws for a spot has the area of the spot divided by total_area_over_umbra_area.", "quantifier": "every spot that fits on the star, ratio >= 1, every stellar radius > 0", "why_tests_cant": "holds only in the limit of small spots; quantifies over all sizes", "anchors": ["vspec_vsm/spots.py:StarSpot.map_pixels", "vspec_vsm/spots.py:StarSpot.angular_radius"]}
{"id": "C118", "title": "Mean and size of the granulation coverage", "statement": "If the Gaussian process has at each time the normal distribution with its mean and variance, then the average of Granulation.get_coverage is mean_coverage and the size of its variations is given by amplitude, whatever the period.", "quantifier": "every granulation with amplitude >= 0 and period > 0, every time axis", "why_tests_cant": "an expectation over all samples of the process", "anchors": ["vspec_vsm/granules.py:Granulation.get_coverage", "vspec_vsm/granules.py:save_cast_coverage", "vspec_vsm/granules.py:GranulationKernel.evaluate"]}
{"id": "C119", "title": "Memory and period of the granulation", "statement": "The covariance of the granulation coverage at two times decays like exp(-tau/(sqrt(2) period)) with the lag tau and changes sign twice per period.", "quantifier": "every amplitude and period > 0, all pairs of times", "why_tests_cant": "quantifies over all lags", "anchors": ["vspec_vsm/granules.py:GranulationKernel.evaluate"]}
{"id": "C120", "title": "Settled population of faculae", "statement": "On a star that starts without faculae and goes through N steps of birth_faculae(dt) and age(dt), the mean number of faculae at the end is n exp((ln10 sigma_l)^2/2), n = coverage 4 pi R^2 / mean_area, up to one step of births and a share of at most (L/2T) exp(2 (ln10 sigma_l)^2), T = N dt; the mean of their total area is coverage 4 pi R^2 (1+e^-2)/2 exp((ln10 (2 sigma_r + sigma_l))^2/2) up to like errors that vanish for long runs and short steps.", "quantifier": "every star with positive facula sizes and lifetimes, step dt > 0, number of steps, and all Poisson counts and normal draws", "why_tests_cant": "an expectation over all histories of unbounded length", "anchors": ["vspec_vsm/star.py:Star.birth_faculae", "vspec_vsm/star.py:Star.age", "vspec_vsm/faculae.py:FaculaGenerator.birth_faculae", "vspec_vsm/faculae.py:Facula.age", "vspec_vsm/faculae.py:FaculaGenerator.get_n_faculae_expected"]}
{"id": "C121", "title": "Settled population of spots", "statement": "On a star that starts without spots and goes through N steps of birth_spots(dt) and age(dt), the mean number of spots at the end is r L up to one step of births and an error of order 1/(N dt), where r is the expected number of births per day and L the mean life of the spots, ln(m/A0)/ln(1+g) + m exp(s^2/2)/w up to s/(2 ln(1+g)); the mean of their total area is r I up to like errors, I = (m exp(s^2/2) - A0)/ln(1+g) + m^2 exp(2 s^2)/(2w) up to m s/(2 ln(1+g)), while r ((m + A0)/g + m^2/(2w)) = coverage 4 pi R^2 (m = dist_area_mean, s = dist_area_logsigma, A0 = init_area, g = growth_rate, w = decay_rate).", "quantifier": "every star with positive init_area <= dist_area_mean, growth and decay rate, coverage >= 0, step dt > 0, number of steps, and all Poisson counts and normal draws", "why_tests_cant": "an expectation over all histories of unbounded length", "anchors": ["vspec_vsm/star.py:Star.birth_spots", "vspec_vsm/star.py:Star.age", "vspec_vsm/spots.py:SpotGenerator.birth_spots", "vspec_vsm/spots.py:SpotGenerator.get_n_spots_to_birth", "vspec_vsm/spots.py:StarSpot.age"]}
{"id": "C122", "title": "Light left by randomly placed spots", "statement": "For n spots of generate_spots placed uniformly and independently over the sphere, the share of the light of the disk from outside all spots is on average exactly (1 - init_area/(4 pi R^2))^n, for birth_spots exp(-x init_area/(4 pi R^2)) with x the expected number of births, whatever the limb darkening and observer; and calc_coverage reports for the photosphere that share times 1 - g up to a constant times the grid spacing (g the granulation fraction).", "quantifier": "every spot generator with isotropic positions and init_area <= 4 pi R^2, number of spots, limb darkening, observer; for the report every star without faculae on a rectangular grid with spots cooler than the photosphere", "why_tests_cant": "an expectation over all random outcomes of an integral over the disk", "anchors": ["vspec_vsm/spots.py:SpotGenerator.generate_spots", "vspec_vsm/spots.py:SpotGenerator.birth_spots", "vspec_vsm/star.py:Star.calc_coverage"]}
{"id": "C123", "title": "Light of a settled star", "statement": "On a star that starts without spots and goes through N steps of birth_spots(dt) and age(dt), the share of the light of the disk from outside all spots is at the end on average exactly exp(-c), whatever the limb darkening and observer, where c is the mean of the summed shares of the surface covered by the spots; so it is at least exp(-A/(4 pi R^2)), A the mean of the total area of the spots.", "quantifier": "every star with isotropic spots, positive init_area <= dist_area_mean, growth and decay rate, coverage >= 0, step dt > 0, number of steps, and all random draws", "why_tests_cant": "an expectation over all histories of unbounded length of an integral over the disk", "anchors": ["vspec_vsm/star.py:Star.birth_spots", "vspec_vsm/star.py:Star.age", "vspec_vsm/spots.py:SpotGenerator.birth_spots", "vspec_vsm/spots.py:StarSpot.age", "vspec_vsm/spots.py:StarSpot.map_pixels"]}
{"id": "C124", "title": "Area ratios of generated spots", "statement": "generate_spots redraws the batch of area ratios until all are positive. If the batches are independent normal(5,1) draws, generate_spots returns with probability one; it draws on average p^(-n) batches, p > 1 - e^(-12.5) the probability that one ratio is positive; the ratios of the returned spots are independent, each normal conditioned on being positive; and each spot has an umbra larger than the spot itself with a probability that is positive and at most e^(-8)/p.", "quantifier": "every spot generator, number of spots n, probability space of draws", "why_tests_cant": "a statement about unbounded loops and the distribution of results over all random outcomes; the bad case has probability about 3e-5", "anchors": ["vspec_vsm/spots.py:SpotGenerator.generate_spots"]}
{"id": "C125", "title": "Units do not matter", "statement": "If two spots, faculae or generators and the arguments of a method are physically the same but given in different units (hours or days, km^2 or MSH, 1/hr or 1/day, ...), then radius, angular_radius, age, the aging of whole collections with the removal of decayed features, mean_lifetime, mean_area, the expected numbers of births, generate_spots, generate_mature_spots and the temperature differences of faculae raise the same exception or give physically the same result.", "quantifier": "all attributes and arguments, in all units, including infinite and NaN values and wrong dimensions", "why_tests_cant": "tests use one unit per attribute; a forgotten conversion shows only for other units", "anchors": ["vspec_vsm/spots.py:StarSpot.age", "vspec_vsm/spots.py:StarSpot.angular_radius", "vspec_vsm/spots.py:SpotGenerator.mean_lifetime", "vspec_vsm/spots.py:SpotGenerator.get_n_spots_to_birth", "vspec_vsm/spots.py:SpotGenerator.generate_mature_spots", "vspec_vsm/faculae.py:Facula.age", "vspec_vsm/faculae.py:Facula.floor_dteff", "vspec_vsm/faculae.py:FaculaGenerator.get_n_faculae_expected"]}
{"id": "C126", "title": "Quantities with the right dimensions never fail", "statement": "With attributes and arguments of the right dimensions, in whatever units, aging spots, faculae and collections, angular radii, temperature differences, mean lifetime and area, expected births and generated spots raise no unit error, and their values are those of the formulas of the other claims in kilometres, days and kelvin.", "quantifier": "all attributes and arguments of the right dimensions, in all units", "why_tests_cant": "all combinations of units", "anchors": ["vspec_vsm/spots.py:StarSpot.age", "vspec_vsm/spots.py:SpotCollection.age", "vspec_vsm/spots.py:SpotGenerator.mean_area", "vspec_vsm/faculae.py:Facula.age", "vspec_vsm/faculae.py:FaculaCollection.age"]}
{"id": "C127", "title": "Generated spots can be aged", "statement": "Spots that generate_mature_spots returns can be aged by any time, any number of times, without an exception, also on a star made without a spot generator.", "quantifier": "every generator, coverage, radius, random outcome and sequence of times", "why_tests_cant": "all random outcomes; tests never age a star with the default generator after generating mature spots", "anchors": ["vspec_vsm/spots.py:SpotGenerator.off", "vspec_vsm/spots.py:SpotGenerator.generate_mature_spots", "vspec_vsm/spots.py:StarSpot.age", "vspec_vsm/star.py:Star.generate_mature_spots", "vspec_vsm/star.py:Star.age"]}
{"id": "C128", "title": "The report does not depend on the unit of temperature", "statement": "calc_coverage of a star reports the same fractions for the same temperatures in whatever unit (K, kK, ...) the temperature of the star was given; only the names of the temperatures change.", "quantifier": "every star, observer, planet, granulation fraction and unit", "why_tests_cant": "tests use kelvin only; quantifies over all units and surfaces", "anchors": ["vspec_vsm/star.py:Star.calc_coverage", "vspec_vsm/star.py:Star.add_faculae_to_map"]}
{"id": "C129", "title": "Number of mature spots", "statement": "With fair independent draws generate_mature_spots(coverage) returns with probability one for every coverage in [0, 1]; the number of spots has a finite mean n with 4 pi coverage <= n E[w] and n E[min(w, M)] <= 4 pi coverage + M for every M > 0, where w is the solid angle pi theta^2 that the loop counts for a spot; the mean of the total area of the spots is n times the mean area of one, which is (init_area + dist_area_mean exp(dist_area_logsigma^2/2))/2 for static generators.", "quantifier": "every spot generator with 0 < init_area <= dist_area_mean that is static or has positive growth and decay rates, coverage in [0, 1], radius > 0, all random draws", "why_tests_cant": "an unbounded loop over random draws; an expectation over all outcomes", "anchors": ["vspec_vsm/spots.py:SpotGenerator.generate_mature_spots", "vspec_vsm/spots.py:SpotGenerator.generate_spots"]}
{"id": "C130", "title": "Mature spots of a star without a spot generator", "statement": "A star made without spots and without a spot generator that is asked for mature spots gets dark ones: each has 0 K in umbra and penumbra, growth and decay rate 0, has the largest area 10 MSH e^z and the area 10 MSH (1 + x (e^z - 1)), z and x its normal and uniform draw, MSH a millionth of the area of the Sun's hemisphere; Star.map has 0 K inside the spots and the temperature of the star elsewhere.", "quantifier": "every star made without spot generator, temperature > 0, grid, coverage and all random draws", "why_tests_cant": "all random outcomes; tests never generate mature spots on a default star", "anchors": ["vspec_vsm/star.py:Star.__init__", "vspec_vsm/star.py:Star.generate_mature_spots", "vspec_vsm/spots.py:SpotGenerator.off", "vspec_vsm/spots.py:SpotGenerator.generate_mature_spots", "vspec_vsm/spots.py:SpotCollection.map_pixels"]}
{"id": "C131", "title": "A star left alone becomes quiet again", "statement": "A star that only ages loses all its spots and faculae in a finite time: after a sequence of age calls with times >= 0 no spot (facula) is left exactly when the total time has reached the end of life of each, which for a spot is the remaining time of growth plus that of decay and for a facula the time to its largest radius plus one lifetime; from then on calc_coverage reports the fraction 1 - g at the temperature of the star and g at that of the granules and nothing else.", "quantifier": "every star with decaying spots and faculae, with granules (of the same temperature as the star or more than 0.01 K apart), every sequence of ageing times, observer, planet and granulation fraction g", "why_tests_cant": "all histories, unbounded times", "anchors": ["vspec_vsm/star.py:Star.age", "vspec_vsm/star.py:Star.calc_coverage", "vspec_vsm/spots.py:SpotCollection.age", "vspec_vsm/faculae.py:FaculaCollection.age"]}
{"id": "C132", "title": "Energy set free by flares", "statement": "The energy that the flares of generate_flare_series(time) set free in a region of the star is on average get_ntotal(time) times min_energy alpha/(alpha + 1) times the share of the sphere taken by the region if alpha < -1, and infinite for every region of positive area if -1 <= alpha < 0, as with the default alpha = -0.829.", "quantifier": "every flare generator with positive minimal energy and negative slope, every time > 0 and measurable region", "why_tests_cant": "an expectation over all random outcomes, infinite for the default slope: no sample shows it", "anchors": ["vspec_vsm/flares.py:FlareGenerator.generate_flare_series", "vspec_vsm/flares.py:FlareGenerator.quantile_func", "vspec_vsm/flares.py:FlareGenerator.get_ntotal"]}
{"id": "C133", "title": "Births do not depend on how the time is split up", "statement": "The numbers of spots (faculae, flares) that birth_spots (birth_faculae, generate_flare_series) makes in two successive intervals with independent draws add up to a number with the same distribution as for one call over the total time, a Poisson distribution whose mean is the expected number.", "quantifier": "every generator with finite expected numbers >= 0, every pair of times", "why_tests_cant": "an equality of probability distributions", "anchors": ["vspec_vsm/spots.py:SpotGenerator.birth_spots", "vspec_vsm/faculae.py:FaculaGenerator.birth_faculae", "vspec_vsm/flares.py:FlareGenerator.generate_flare_series", "vspec_vsm/spots.py:SpotGenerator.get_n_spots_to_birth", "vspec_vsm/faculae.py:FaculaGenerator.get_n_faculae_expected", "vspec_vsm/flares.py:FlareGenerator.get_ntotal"]}
{"id": "C134", "title": "Latitudes of the solar distribution", "statement": "With distribution 'solar' the latitude of each spot of generate_spots is normal around 15 degrees north or south with standard deviation 5 degrees, either with probability 1/2, and independent of the longitude, which is uniform; its mean is 0 and its mean square 250 square degrees; with a probability that is positive and at most 2 exp(-112.5) the latitude given to a spot is beyond a pole.", "quantifier": "every spot generator with distribution 'solar', number of spots and index, fair draws", "why_tests_cant": "a statement about probability distributions", "anchors": ["vspec_vsm/spots.py:SpotGenerator.get_coordinates", "vspec_vsm/spots.py:SpotGenerator.generate_spots"]}
{"id": "C135", "title": "Stars do not influence each other", "statement": "In a program with several stars in which no spot, facula, collection or generator is given to two owners, every call on a star has the result it would have were the star alone, does nothing to the other stars, and after the whole program each star is what its own constructor and its own calls in their order make of it.", "quantifier": "every program of constructor calls and method calls, every number of stars, all arguments and random draws", "why_tests_cant": "all programs; the tests build one star at a time", "anchors": ["vspec_vsm/star.py:Star.__init__", "vspec_vsm/star.py:Star.age", "vspec_vsm/star.py:Star.birth_spots", "vspec_vsm/star.py:Star.birth_faculae", "vspec_vsm/star.py:Star.add_spot", "vspec_vsm/star.py:Star.add_fac", "vspec_vsm/spots.py:SpotCollection.add_spot", "vspec_vsm/faculae.py:FaculaCollection.add_faculae"]}
{"id": "C136", "title": "Stars that share a collection", "statement": "Stars built on the same spot (facula) collection show the same spots (faculae) after every program; letting times x and y pass on two such stars ages the features of both by x and then y; building a second star on the spot collection of a star, with a grid whose arrays numpy cannot combine with the first grid's (see C148), makes every later calc_coverage of the first raise, while with the same grid nothing changes.", "quantifier": "every program, all stars sharing collections, times and grids", "why_tests_cant": "all programs with shared objects; no test shares a collection", "anchors": ["vspec_vsm/star.py:Star.__init__", "vspec_vsm/star.py:Star.age", "vspec_vsm/star.py:Star.calc_coverage", "vspec_vsm/spots.py:SpotCollection.set_gridmaker", "vspec_vsm/spots.py:SpotCollection.age", "vspec_vsm/faculae.py:FaculaCollection.age"]}
{"id": "C137", "title": "Stars that share a generator", "statement": "When a second star is built with the spot generator of a star, with a grid whose arrays numpy cannot combine with the first grid's (see C148), the next spots born on the first star carry distances on the wrong grid and every calc_coverage of the first star raises; faculae born from a shared facula generator are moved to the star's own grid, except that birth_faculae raises TypeError if the generator was moved to a rectangular grid and the star has a spiral one.", "quantifier": "every pair of stars sharing a generator, all grids and random draws", "why_tests_cant": "all programs with shared generators; no test shares a generator between stars", "anchors": ["vspec_vsm/star.py:Star.__init__", "vspec_vsm/star.py:Star.birth_spots", "vspec_vsm/star.py:Star.birth_faculae", "vspec_vsm/spots.py:SpotCollection.add_spot", "vspec_vsm/faculae.py:FaculaCollection.add_faculae", "vspec_vsm/star.py:Star.calc_coverage"]}
{"id": "C138", "title": "Settings that are refused", "statement": "FaculaGenerator can be made exactly with a float or int coverage (else TypeError) and distribution 'iso' (else NotImplementedError for 'solar', ValueError for others); a SpotGenerator with an unknown distribution or negative dist_area_logsigma can be made, but birth_spots then always raises, even if no spot is to be born, and so does generate_mature_spots for positive coverage; a facula whose wall and floor temperatures are equal or round to the same kelvin makes calc_coverage raise ValueError as soon as it covers a pixel, while effective_area raises only if they are equal.", "quantifier": "every generator, star, facula, observer and all random draws", "why_tests_cant": "all settings and states; the tests check single values only", "anchors": ["vspec_vsm/faculae.py:FaculaGenerator.__init__", "vspec_vsm/spots.py:SpotGenerator.get_coordinates", "vspec_vsm/spots.py:SpotGenerator.generate_spots", "vspec_vsm/star.py:Star.birth_spots", "vspec_vsm/star.py:Star.generate_mature_spots", "vspec_vsm/faculae.py:Facula.effective_area", "vspec_vsm/star.py:Star.add_faculae_to_map"]}
{"id": "C139", "title": "Units of flares", "statement": "If two flares, flare generators or flare collections and the arguments of a method are physically the same but given in different units (erg or J, hours or days, degrees or radians), then calc_peak_area, areacurve, get_timearea, frequency_greater_than, get_nexp_greater_than, cdf, quantile_func, generate_flare_series, get_flares_in_timeperiod, get_visible_flares_in_timeperiod and get_flare_integral_in_timeperiod raise the same exception or give physically the same result, which is that of the formulas of the other claims in days, kilometres, ergs, kelvin and radians. An energy or observation time of the wrong dimension given to the generator raises UnitConversionError.", "quantifier": "all flares, generators, collections, arguments and random draws, in all units", "why_tests_cant": "tests use one unit per attribute; a forgotten conversion shows only for other units", "anchors": ["vspec_vsm/flares.py:StellarFlare.calc_peak_area", "vspec_vsm/flares.py:StellarFlare.areacurve", "vspec_vsm/flares.py:StellarFlare.get_timearea", "vspec_vsm/flares.py:FlareGenerator.get_nexp_greater_than", "vspec_vsm/flares.py:FlareGenerator.cdf", "vspec_vsm/flares.py:FlareGenerator.generate_flare_series", "vspec_vsm/flares.py:FlareCollection.mask", "vspec_vsm/flares.py:FlareCollection.get_flare_integral_in_timeperiod"]}
{"id": "C140", "title": "Switching flares on", "statement": "FlareGenerator.off() makes no flares for any time, in whatever unit; once it is given a finite minimal energy, generate_flare_series makes as many flares as its Poisson draw says.", "quantifier": "every positive minimal energy and time in all units, all random draws", "why_tests_cant": "tests never change the generator that off() returns", "anchors": ["vspec_vsm/flares.py:FlareGenerator.off", "vspec_vsm/flares.py:FlareGenerator.gen_fwhm", "vspec_vsm/flares.py:FlareGenerator.generate_flare_series"]}
{"id": "C141", "title": "Average over all observers", "statement": "Averaged over all observers, the share of the light that comes from a part of the surface is its share of the surface, whatever the limb darkening; and the fraction that calc_coverage reports for a temperature, averaged over all observers, is the share of the surface with that temperature (the fraction g of the photosphere counting as granules), up to a constant times the grid spacing.", "quantifier": "every star without faculae on a rectangular grid with limb darkening that is nowhere negative, all spots, granulation fractions and planets", "why_tests_cant": "an integral over all observers", "anchors": ["vspec_vsm/star.py:Star.calc_coverage", "vspec_vsm/star.py:Star.ld_mask", "vspec_vsm/coordinate_grid.py:CoordinateGrid.cos_angle_from_disk_center"]}
{"id": "C142", "title": "Flares and observers", "statement": "The observer at the antipodes sees exactly the flares of a time window that are behind the limb for the first observer, so every flare off the limb is seen by exactly one of the two; averaged over all observers, any amount summed over the flares seen is half of that summed over all the flares of the window.", "quantifier": "every flare collection, time window, observer and amount", "why_tests_cant": "an integral over all observers, all collections", "anchors": ["vspec_vsm/flares.py:FlareCollection.get_visible_flares_in_timeperiod", "vspec_vsm/flares.py:FlareCollection.get_flares_in_timeperiod"]}
{"id": "C143", "title": "Surface map in single precision", "statement": "calc_coverage reports the same fractions as it would with exact temperatures although the surface map is stored in single precision: the same error or, in the same order, the same fractions under names off by less than a hundredth of a kelvin. False of the code: with a photosphere of 3300.005001 K every report of a quiet star raises KeyError, and with a photosphere of 3300.1 K every report with a facula on a pixel raises TypeError.", "quantifier": "all stars whose temperatures are below 65536 K and more than 1/50 K apart, with photosphere and granules in whole hundredths or 256ths of a kelvin, with faculae a photosphere in whole 256ths; all observers, planets and granule fractions", "why_tests_cant": "tests use temperatures in whole kelvins, which single precision holds exactly", "anchors": ["vspec_vsm/coordinate_grid.py:CoordinateGrid.zeros", "vspec_vsm/star.py:Star.calc_coverage", "vspec_vsm/star.py:Star.add_faculae_to_map", "vspec_vsm/spots.py:SpotCollection.map_pixels"]}
{"id": "C144", "title": "Geometry in double precision", "statement": "With the rounding of double precision get_angle_between is within 2e-7 radians of the angle between the two points, and the distances of pixels to spots and faculae are within 4e-7 (next to the antipodes also NaN); a pixel whose distance from the edges of all spots, umbrae and faculae is more than 1e-6 radians is attributed as with exact arithmetic, so the spot map holds the exact temperature there; and add_faculae_to_map returns a map. False of the code: at latitude 251/256 radians the angle of a point to itself is NaN, and a star with a facula there, seen from above it, has no map.", "quantifier": "all points, spots with umbra not larger than the spot, faculae, grids and library functions with relative error at most 2^-52; angles further than 2e-7 from 0 and pi, for the map faculae further than 1e-6 from the disk centre, its antipode and the limb", "why_tests_cant": "an error bound for all inputs; the tests compare single values with a tolerance", "anchors": ["vspec_vsm/helpers.py:get_angle_between", "vspec_vsm/coordinate_grid.py:CoordinateGrid.cos_angle_from_disk_center", "vspec_vsm/spots.py:StarSpot.set_gridmaker", "vspec_vsm/spots.py:StarSpot.angular_radius", "vspec_vsm/spots.py:StarSpot.map_pixels", "vspec_vsm/faculae.py:Facula._r", "vspec_vsm/faculae.py:Facula.map_pixels", "vspec_vsm/spots.py:SpotCollection.map_pixels", "vspec_vsm/star.py:Star.add_faculae_to_map"]}
{"id": "C145", "title": "The report in double precision", "statement": "Computed in double precision from the surface map and the transit mask, calc_coverage reports the same temperatures in the same order as exact arithmetic, and every fraction differs from the exact one by at most (3 (600 e + 30000 u + 80 D u))/L, u = 2^-53, where L is the light of the visible pixels, D the largest number of additions any pixel takes part in, and e the error of the coordinates of the pixels, at most 80 u on a rectangular grid and 200 n u on a spiral of n points; so the fractions add up to one up to that error per entry.", "quantifier": "every star on a grid of at most 10^7 pixels with limb darkening that is nowhere negative or rising to the limb, every observer, planet and granulation fraction in [0, 1], every order of the sums and all library functions with relative error at most 2^-52", "why_tests_cant": "an error bound for all inputs and all orders of summation; the tests compare single values with a tolerance", "anchors": ["vspec_vsm/star.py:Star.calc_coverage", "vspec_vsm/star.py:Star.ld_mask_for_plotting", "vspec_vsm/coordinate_grid.py:RectangularGrid._area", "vspec_vsm/coordinate_grid.py:SpiralGrid._area", "vspec_vsm/coordinate_grid.py:get_lat_points", "vspec_vsm/coordinate_grid.py:get_lon_points", "vspec_vsm/coordinate_grid.py:SpiralGrid._grid", "vspec_vsm/coordinate_grid.py:CoordinateGrid.cos_angle_from_disk_center"]}
{"id": "C146", "title": "Only the side that faces the observer shows", "statement": "Two stars that differ in spots and faculae but have the same temperatures on the pixels in front of the limb get the same report, except for entries that are zero; so adding any spots and faculae that lie wholly behind the limb by add_spot and add_fac leaves every fraction, the uncovered fractions and the planet's fraction as they were. The temperatures of a map must be more than 0.01 K apart: a spot of 2700.004 K behind the limb turns the entry of a visible spot of 2700 K into zero.", "quantifier": "every star, every collection of spots and faculae added, every observer, planet and granulation fraction, both grids", "why_tests_cant": "compares pairs of stars for all observers; the tests look at one star at a time", "anchors": ["vspec_vsm/star.py:Star.calc_coverage", "vspec_vsm/star.py:Star.ld_mask", "vspec_vsm/star.py:Star.add_faculae_to_map", "vspec_vsm/star.py:Star.add_spot", "vspec_vsm/star.py:Star.add_fac", "vspec_vsm/coordinate_grid.py:CoordinateGrid.cos_angle_from_disk_center", "vspec_vsm/spots.py:SpotCollection.map_pixels"]}
{"id": "C147", "title": "Average over one rotation", "statement": "Summed over one rotation in equal steps, as many as the grid has meridians, the fraction reported for a temperature is that number times the mean over the disk of the part of each pixel's parallel that has this temperature (the fraction g of the photosphere counting as granules); so the longitudes of spots do not matter for the mean, and neither does the planet.", "quantifier": "every star without faculae on a rectangular grid with temperatures more than 0.01 K apart, every observer, granulation fraction and planet, with its own phase at every step", "why_tests_cant": "a statement about all reports of a rotation together", "anchors": ["vspec_vsm/star.py:Star.calc_coverage", "vspec_vsm/star.py:Star.ld_mask", "vspec_vsm/coordinate_grid.py:CoordinateGrid.cos_angle_from_disk_center", "vspec_vsm/coordinate_grid.py:RectangularGrid._grid", "vspec_vsm/coordinate_grid.py:RectangularGrid._area"]}
{"id": "C148", "title": "Grids that numpy combines silently", "statement": "With numpy's broadcasting, calc_coverage gives the same report as without whenever all arrays belong to one grid. If it gives a report at all, the grids of the star, of its spot collection and of the distances of its spots can be broadcast pairwise; different grids with at least two points per axis can exactly if one is a spiral of n points and the other has n parallels. In that case no error is raised: a spot measured on the spiral is painted on whole parallels of the rectangular grid, and on a spiral star whose spots or collection carry arrays of n parallels and k meridians the reported fractions add up to k instead of 1.", "quantifier": "every star, observer and planet, all grids of star, collection and spots", "why_tests_cant": "silent misuse; no test mixes grids", "anchors": ["vspec_vsm/spots.py:SpotCollection.map_pixels", "vspec_vsm/spots.py:StarSpot.map_pixels", "vspec_vsm/star.py:Star.add_faculae_to_map", "vspec_vsm/star.py:Star.calc_coverage"]}
{"id": "C149", "title": "Granulation and its seed", "statement": "The granulation coverage of a star depends on the times only through their differences, so an observation that starts later or runs backwards gets the very same values; its first value depends on nothing but the parameters, the seed and the number of times; asked for one time after the other the star gives the same value at all times; and of two times the second value is built from both draws by the correlation of the kernel, so the value at a time depends on which other times are asked for and in which order. Stars with the same mean, amplitude, period and seed get the same values, and so do all granulations made without a seed.", "quantifier": "every star with granulation, all seeds, times, draws and Cholesky factorisations", "why_tests_cant": "a relation between separate calls; tests look at one call", "anchors": ["vspec_vsm/granules.py:Granulation.get_coverage", "vspec_vsm/granules.py:Granulation.__init__", "vspec_vsm/granules.py:build_gp", "vspec_vsm/star.py:Star.get_granulation_coverage"]}
{"id": "C150", "title": "The report changes gradually as the observer moves", "statement": "If two observers look at a star without faculae from directions an angle apart, the fractions that calc_coverage reports for any set of temperatures differ by at most three times that angle (in radians) divided by the light that the first observer receives; on a rectangular grid of at least 500 by 1000 points (the default) that is at most 30 times the angle, so a small turn of the star can only change the report a little, wherever its spots are.", "quantifier": "every star without faculae with physical limb darkening and temperatures more than 0.01 K apart, all pairs of observers and planets, granulation fraction between 0 and 1, both grids", "why_tests_cant": "a continuity statement over all pairs of observers; tests compare single reports", "anchors": ["vspec_vsm/star.py:Star.calc_coverage", "vspec_vsm/star.py:Star.ld_mask", "vspec_vsm/coordinate_grid.py:CoordinateGrid.cos_angle_from_disk_center", "vspec_vsm/star.py:Star.get_jacobian"]}
{"id": "C151", "title": "Units of the observer and the planet", "statement": "calc_coverage gives the same report whatever units of angle and length the observer's coordinates, the planet's orbit, radius, phase and inclination and the star's radius are given in. Whenever it gives a report, the two lengths had units of length, the longitude and the phase units of angle (or were the plain number 0) and the latitude and inclination units of angle or none; a plain number is silently taken as radians, except that latitude and longitude must have units while the planet is near the disk on the observer's side.", "quantifier": "every star, all arguments: plain numbers or quantities of any unit and dimension", "why_tests_cant": "tests use degrees throughout; the statement is about all units and all wrong arguments", "anchors": ["vspec_vsm/star.py:Star.calc_coverage", "vspec_vsm/star.py:Star.get_transit_mask", "vspec_vsm/star.py:Star.get_pl_frac", "vspec_vsm/star.py:Star.get_mu", "vspec_vsm/coordinate_grid.py:CoordinateGrid.cos_angle_from_disk_center", "vspec_vsm/helpers.py:proj_ortho", "vspec_vsm/helpers.py:get_angle_between"]}
{"id": "C152", "title": "Growing spots only cool the star, decaying spots only warm it", "statement": "Letting time pass with age on a star without faculae whose spots all keep growing makes no pixel of the surface map warmer and does not increase the fraction that calc_coverage reports for the photosphere; once no spot grows any more it makes no pixel cooler and does not decrease that fraction, although spots are removed. More generally the same holds, with faculae, for any two sets of spots of which one has a larger spot at the place of every spot of the other. The areas must not exceed the surface of the star: a growing spot that gets larger disappears from the map.", "quantifier": "every star, spots with umbra no hotter than penumbra and temperatures more than 0.01 K apart, every time >= 0, observer, planet and granulation fraction, both grids", "why_tests_cant": "relates reports before and after any time for all spots", "anchors": ["vspec_vsm/star.py:Star.age", "vspec_vsm/spots.py:StarSpot.age", "vspec_vsm/spots.py:SpotCollection.age", "vspec_vsm/spots.py:SpotCollection.map_pixels", "vspec_vsm/spots.py:StarSpot.angular_radius", "vspec_vsm/star.py:Star.calc_coverage"]}
{"id": "C153", "title": "The report of a spotted star with all rounding", "statement": "Computed with the rounding of double precision throughout (grid, distances, radii, areas, fractions) and the surface map in single precision, calc_coverage of a star with spots gives, for the same transit mask, every fraction up to (3 (600 e + 30000 u + 80 D u) + E)/L, u = 2^-53, where L is the light that the disk sends, E the light of the pixels within 1e-6 radians of the edge of a spot or umbra, D the depth of the sums and e the error of the grid's coordinates; the surface map itself is exact at all other pixels.", "quantifier": "every star with spots, without faculae, at known places and with temperatures (multiples of 1/256 K, say) that single precision holds and that are 0.01 K apart, every observer, fraction of granules and transit mask, every order of the sums, every mathematical library accurate to two units in the last place", "why_tests_cant": "tests compare with tolerances that hide where the error comes from, and cannot check all stars, grids and libraries", "anchors": ["vspec_vsm/star.py:Star.calc_coverage", "vspec_vsm/star.py:Star.map", "vspec_vsm/spots.py:SpotCollection.map_pixels", "vspec_vsm/spots.py:StarSpot.angular_radius", "vspec_vsm/coordinate_grid.py:get_lat_points", "vspec_vsm/coordinate_grid.py:get_lon_points", "vspec_vsm/coordinate_grid.py:SpiralGrid._grid"]}
{"id": "C154", "title": "Walls of a facula whose pixels lie equally far out", "statement": "In every facula with a pixel at least one pixel is painted as wall; the walls are the outermost pixels, and those strictly farther out than the innermost wall are at most the share (wall fraction) of the other pixels. So the share of wall pixels is at least the wall fraction minus 1/n, and exceeds it by at most the share of the pixels that are exactly as far out as the innermost wall: it can be 1 although the wall fraction is 0, when the observer looks straight at the facula.", "quantifier": "every star, facula and observer for which the map is made, with any ties between pixels", "why_tests_cant": "all pixel sets with ties, which every regular grid has for an observer above a facula", "anchors": ["vspec_vsm/star.py:Star.add_faculae_to_map", "vspec_vsm/faculae.py:Facula.fractional_effective_area"]}
{"id": "C155", "title": "The report of a star with faculae as the observer moves", "statement": "If two observers look at a star with spots and faculae from directions an angle apart, the fractions that calc_coverage reports for any set of temperatures that contains both or neither of the temperatures of each facula differ by at most three times that angle divided by the light that the first observer receives (30 times the angle on a rectangular grid of at least 500 by 1000 points). For the walls alone this is false: they can drop from the whole disk to half of it for an arbitrarily small move.", "quantifier": "every star whose faculae do not show the temperature of the photosphere, with physical limb darkening and temperatures more than 0.01 K apart, all pairs of observers and planets, granulation fraction between 0 and 1, both grids", "why_tests_cant": "a continuity statement over all pairs of observers; the jump sits at single directions", "anchors": ["vspec_vsm/star.py:Star.calc_coverage", "vspec_vsm/star.py:Star.add_faculae_to_map", "vspec_vsm/star.py:Star.ld_mask", "vspec_vsm/coordinate_grid.py:CoordinateGrid.cos_angle_from_disk_center"]}
{"id": "C156", "title": "The projection and the transit mask in double precision", "statement": "Computed in double precision, proj_ortho gives the place at which a point of the surface appears on the disk up to 0.011 stellar radii across and 0.0003 along the axis, NaN behind the limb, and NaN otherwise only within 1e-14 of the limb or 1e-4 of the centre of the disk. In get_transit_mask a pixel behind the limb, or farther from the centre of the planet than its radius and two projected pixel radii by 0.012, is left free; with the exception of the limb and the centre a pixel nearer than that by 0.012 is counted as touched, and one that is inside the planet by two projected radii and 0.012 is covered completely, while one that is not, by 0.012, does not count as covered completely. At the centre of the disk the pixel can be lost.", "quantifier": "every observer at least 1e-4 radians from the poles, every point, every position and size of the planet up to 100 stellar radii, every pixel radius up to 10 and every mathematical library accurate to two units in the last place", "why_tests_cant": "the coordinates go through a quotient of two small numbers, a rounding to four decimals and an arc cosine near 1, so errors could be large at places that no test visits", "anchors": ["vspec_vsm/helpers.py:proj_ortho", "vspec_vsm/star.py:Star.get_transit_mask"]}
{"id": "C157", "title": "Mature spots of spots that decay but do not grow", "statement": "If the spots of a generator decay but have growth rate 0, mean_lifetime is infinite or NaN, and a call of generate_mature_spots for any positive coverage ends after one spot, whose area is NaN. That spot changes no report of the star. Aging does not remove it as long as no single step is longer than its peak area divided by its decay rate.", "quantifier": "every generator with positive mean and initial areas, growth rate 0 and a decay rate other than 0, every coverage in (0,1], every star radius, every random outcome; every star, observer and planet; every sequence of steps", "why_tests_cant": "the call raises no exception and the star looks untouched; the request for a spotted star fails silently for every coverage", "anchors": ["vspec_vsm/spots.py:SpotGenerator.generate_mature_spots", "vspec_vsm/spots.py:SpotGenerator.mean_lifetime", "vspec_vsm/spots.py:StarSpot.age", "vspec_vsm/spots.py:SpotCollection.clean_spotlist", "vspec_vsm/star.py:Star.generate_mature_spots"]}
{"id": "C158", "title": "Random number generators as objects, and reproducibility", "statement": "When the random numbers come from numpy Generator objects, each star of a program is after every sequence of calls (births, mature spots, flares, adding, aging) what its own calls make of it with some random numbers, so that everything proved for all random numbers applies. If no other star uses its generators, the star is the same as if only its own calls had been made: two programs that make the same calls on equal stars with generators in the same states give equal stars and leave the generators in the same states, whatever else they do. A generator class keeps the rng given to it, and the rng argument of Star only reaches the generators that were not given; made without rng, all objects of a class share one default object, and then the number of spots of one star can depend on calls on another.", "quantifier": "every random number library, every number of stars, every program of calls, every assignment of generators to stars", "why_tests_cant": "reproducibility is a statement about pairs of programs and about everything that else happens in them; a shared default argument shows only when two stars live in the same process", "anchors": ["vspec_vsm/spots.py:SpotGenerator.generate_spots", "vspec_vsm/spots.py:SpotGenerator.birth_spots", "vspec_vsm/spots.py:SpotGenerator.generate_mature_spots", "vspec_vsm/faculae.py:FaculaGenerator.birth_faculae", "vspec_vsm/flares.py:FlareGenerator.generate_flare_series", "vspec_vsm/star.py:Star.__init__"]}
{"id": "C159", "title": "Aging of spots in double precision", "statement": "If the arithmetic of StarSpot.age is done in double precision, rounding errors amount to an error of the spot's clock that grows at most linearly: after n calls of total time T it is at most 200/2^53*((1+1/tau)(T+n/tau)+n*A/w) days (tau the logarithmic growth rate, A the largest area, w the decay rate). A spot is removed or kept as in exact arithmetic except within twice this time of its exact end, its area differs from the exact one by at most (3*tau*A+2w) times this time, and the growth flag is right except within twice this time of the maximum. In a collection the spots do not influence each other.", "quantifier": "all spots that grow at a logarithmic rate of at least 1e-6 a day, all finite sequences of non-negative times, all accurate exp and log", "why_tests_cant": "the errors of a long history of small steps accumulate, and near the maximum and the end of life rounding decides a branch; tests compare a few steps with a loose tolerance", "anchors": ["vspec_vsm/spots.py:StarSpot.age", "vspec_vsm/spots.py:SpotCollection.age", "vspec_vsm/spots.py:SpotCollection.clean_spotlist"]}
{"id": "C160", "title": "Aging of faculae in double precision", "statement": "If Facula.age and FaculaCollection.clean_faclist are computed in double precision, rounding errors amount to an error of the facula's clock of at most 200/2^53*(T+n*lifetime) days after n calls of total time T. A facula is removed or kept as in exact arithmetic except within twice this time of its exact end, its radius differs from R*exp(-2|T-u|/lifetime) (u the time of its maximum R) by at most 18*R/lifetime times this error, and the growth flag is right except within twice this time of the maximum. In a collection the faculae do not influence each other.", "quantifier": "all faculae, growing or decaying, all finite sequences of non-negative times, all accurate exp and log", "why_tests_cant": "the time of the maximum is recovered from the logarithm of the radius at every step, so errors are fed back; only a bound over all histories shows that they do not grow exponentially", "anchors": ["vspec_vsm/faculae.py:Facula.age", "vspec_vsm/faculae.py:FaculaCollection.age", "vspec_vsm/faculae.py:FaculaCollection.clean_faclist"]}
{"id": "C161", "title": "Light from outside randomly placed faculae", "statement": "n newly generated faculae leave on average exactly the share (1-q)^n of the light of the disk outside all of them, whatever the limb darkening and wherever the observer, where q is the mean share of the sphere within the radius of a newborn facula, at most (r0/R)^2*exp(-4+2(ln10*sigma)^2)/4. On a star without faculae that goes through N steps of birth_faculae(dt) and age(dt), the run almost surely succeeds and at its end the light from outside the faculae is on average exactly exp(-c), where c is the mean of the summed shares of the sphere covered by the faculae; c is at most coverage*(1+e^-2)/2*exp((ln10(2sigma_r+sigma_l))^2/2) up to an error that goes to zero with long runs of short steps.", "quantifier": "all generators, numbers, steps, run lengths, radii of the star, limb darkening with non-negative intensity, observers", "why_tests_cant": "a statement about mean values over all random draws, over overlapping faculae and for every observer at once; simulations only estimate it", "anchors": ["vspec_vsm/faculae.py:FaculaGenerator.generate_faculae", "vspec_vsm/faculae.py:FaculaGenerator.birth_faculae", "vspec_vsm/faculae.py:Facula.age", "vspec_vsm/star.py:Star.age", "vspec_vsm/star.py:Star.birth_faculae"]}
{"id": "C162", "title": "Transit depth on spiral grids", "statement": "On a spiral grid of n points the covered fractions that calc_coverage reports add up to the depth of the transit - the integral of the quadratic limb-darkening law over the part of the stellar disk hidden by the planet, divided by the integral over the disk - up to ((24 rho + 16 F/n) + 4 w max(rp, w))/(1 - u1/3 - u2/6), where F is any Fibonacci number, rho = pi sqrt(F/n) + 4 pi/F and w = 3 rho + 0.0101; with the planet behind the star they add up to zero. For every tolerance all grids of enough points give the depth within the tolerance beyond the inaccuracy of the projection, for all stars and orbits at once.", "quantifier": "every star on a spiral grid of at least 5 points with any spots, faculae and granulation, every observer not above a pole (above a pole: at longitude 0), every orbit, planet radius, phase and inclination, physical limb darkening, temperatures on the map more than 0.01 K apart", "why_tests_cant": "compares a sum over the points of an irregular grid with an integral, uniformly over all stars, planets and grid sizes", "anchors": ["vspec_vsm/star.py:Star.calc_coverage", "vspec_vsm/star.py:Star.get_transit_mask", "vspec_vsm/coordinate_grid.py:SpiralGrid"]}
{"id": "C163", "title": "Flares in double precision", "statement": "When every operation of calc_peak_area and areacurve is rounded to double precision, the peak area has a relative error of at most 2^-44. The area at any time is never negative and differs from the exact one by at most 2^-43 of the peak area, is zero exactly outside the flare and positive inside, unless the time is within rounding of one of the two ends of the flare (one width before and twenty widths after the peak); there it differs by at most 0.55 percent of the peak area. At the time of the peak the area is the computed peak area.", "quantifier": "every flare of any non-negative energy, any non-zero temperature, any positive width and peak time, every time, and every exponential and power function with a relative error of at most 2^-52", "why_tests_cant": "a bound on rounding errors over all flares and times, for every library that is accurate enough", "anchors": ["vspec_vsm/flares.py:StellarFlare.calc_peak_area", "vspec_vsm/flares.py:StellarFlare.areacurve", "vspec_vsm/xoflares.py:get_light_curvenp", "vspec_vsm/xoflares.py:_flareintegralnp"]}
{"id": "C164", "title": "Overlap of circles in double precision", "statement": "When every operation of calc_circ_fraction_inside_unit_circle is rounded to double precision, the result is a number close to the true share of the small disk: within 1e-7 for r = 1 (the case of a facula's wall, whose wall and floor shares are therefore never NaN), within 1e-11/r^3 for 1/1000 <= r <= 1 and circles that cross with a margin of r/1000, exactly 0 or 1 for disks that are clearly outside or inside; ValueError is raised for r > 1. (For circles that touch the code can return NaN: (1.1, 0, 0.1) does.)", "quantifier": "all centres and radii, all depths, radii and angles of faculae, and every library with a relative error of at most 2^-52", "why_tests_cant": "a bound on rounding errors over all circles; the failing inputs are a set of tiny measure near tangency", "anchors": ["vspec_vsm/helpers.py:calc_circ_fraction_inside_unit_circle", "vspec_vsm/faculae.py:Facula.effective_area", "vspec_vsm/faculae.py:Facula.fractional_effective_area"]}
{"id": "C165", "title": "Time-area of a flare in double precision", "statement": "When every operation of get_timearea is rounded to double precision, the time-area is never negative and differs from the exact trapezoid sum by at most peak area times (2^-42 + 2^-50 per level of the summation) times the length of the window, plus 0.55 percent of the peak area times the length of the intervals one of whose ends falls within rounding of an end of the flare.", "quantifier": "every flare of non-negative energy, every increasing series of times in days, every order of summation, and every exponential and power function with a relative error of at most 2^-52", "why_tests_cant": "a bound on rounding errors over all flares and series of times and all orders of summation", "anchors": ["vspec_vsm/flares.py:StellarFlare.get_timearea", "vspec_vsm/flares.py:StellarFlare.areacurve"]}
{"id": "C166", "title": "Visible fraction of the planet in double precision", "statement": "When every operation is rounded to double precision, the planet fraction that get_transit_mask returns is exactly 1 on the near half of the orbit and for a planet off the disk, exactly 0 for a planet behind the disk and inside it, and within 1.1e-11 (R/p)^3 + 2e-13 o/p of one minus the hidden share of the planet's disk while it crosses the limb; for a planet larger than the star it raises ValueError as soon as the planet is behind the star and clearly less than its own diameter off the limb, and returns 1 clearly beyond that.", "quantifier": "all radii of star, orbit (up to a million stellar radii) and planet, all phases and inclinations up to 1000 degrees, outside stated margins of about 1e-13 of the orbit, and every library with a relative error of at most 2^-52", "why_tests_cant": "a bound on rounding errors over all orbits; a wrong branch for some phase or a loss of digits for wide orbits would be seen only at particular inputs", "anchors": ["vspec_vsm/star.py:Star.get_transit_mask", "vspec_vsm/star.py:Star.get_pl_frac", "vspec_vsm/helpers.py:calc_circ_fraction_inside_unit_circle"]}
{"id": "C167", "title": "Scatter of the light left by randomly placed spots", "statement": "The share of the light of the disk that n spots of generate_spots leave, each covering a share f of the sphere, has a mean square deviation of at most k n f^2 (1-f)^(n-1) from its mean (1-f)^n, k = 4/(1-u1/3-u2/6) <= 8; for birth_spots with x expected births at most k x f^2 exp(-x f) around exp(-x f); on a star that goes through N steps of birth_spots(dt) and age(dt) at most k w exp(-c) around exp(-c), c and w the means of the sum over the spots of the shares they cover and of the squares of these shares. So the light differs from the mean by e or more with a probability of at most this number divided by e^2: many small spots give nearly the same light every time.", "quantifier": "all generators with isotropic places, numbers of spots, limb darkening laws, observers, steps, and all probability spaces with fair draws", "why_tests_cant": "a bound on a variance over all draws; a test sees one draw", "anchors": ["vspec_vsm/spots.py:SpotGenerator.generate_spots", "vspec_vsm/spots.py:SpotGenerator.birth_spots", "vspec_vsm/spots.py:StarSpot.age", "vspec_vsm/star.py:Star.age", "vspec_vsm/star.py:Star.birth_spots"]}
{"id": "C168", "title": "The number of spots and of faculae is Poisson distributed", "statement": "On a star that starts without spots and goes through N steps of birth_spots(dt) and age(dt), the number of spots at the end has exactly a Poisson distribution, so that the star is without spots with probability exp(-M); its mean M is at most the expected number of births per day times the mean lifetime and at least this minus the births of one step and a term that goes to zero with 1/(N dt). The same holds for faculae with birth_faculae, with the mean of C120.", "quantifier": "all sound stars with good generators, steps dt > 0, numbers of steps N > 0, and all probability spaces with fair draws", "why_tests_cant": "a distribution over all draws after any number of steps; a test sees single draws", "anchors": ["vspec_vsm/spots.py:SpotGenerator.birth_spots", "vspec_vsm/spots.py:SpotCollection.age", "vspec_vsm/faculae.py:FaculaGenerator.birth_faculae", "vspec_vsm/faculae.py:FaculaCollection.age", "vspec_vsm/star.py:Star.age", "vspec_vsm/star.py:Star.birth_spots", "vspec_vsm/star.py:Star.birth_faculae"]}
{"id": "C169", "title": "The variance of the total area of spots and of faculae", "statement": "On a star that starts without spots and goes through N steps of birth_spots(dt) and age(dt), the variance of the total area of the spots at the end is the mean of the sum of the squares of their areas; the same holds for the sum of any function of the areas that vanishes at 0, and for the total area of the faculae after steps of birth_faculae(dt) and age(dt).", "quantifier": "all sound stars with good generators, steps dt > 0, numbers of steps N, measurable functions of the area, and all probability spaces with fair draws", "why_tests_cant": "a second moment over all draws after any number of steps", "anchors": ["vspec_vsm/spots.py:SpotGenerator.birth_spots", "vspec_vsm/spots.py:StarSpot.age", "vspec_vsm/spots.py:SpotCollection.age", "vspec_vsm/faculae.py:FaculaGenerator.birth_faculae", "vspec_vsm/faculae.py:Facula.age", "vspec_vsm/star.py:Star.age"]}
{"id": "C170", "title": "The numbers of spots and of faculae in a region", "statement": "On a star that starts without spots and goes through N steps of birth_spots(dt), with an isotropic distribution, and age(dt), the number of spots whose centre lies in a given region of the sphere has a Poisson distribution, whose mean is the mean number of all spots times the share of the sphere taken by the region, and the numbers of spots in two disjoint regions, such as the visible and the hidden half of the star, are independent. The same holds for faculae.", "quantifier": "all sound stars with good generators, steps dt > 0, numbers of steps N, measurable regions of the sphere, and all probability spaces with fair draws", "why_tests_cant": "a joint distribution over all draws after any number of steps and for all regions", "anchors": ["vspec_vsm/spots.py:SpotGenerator.birth_spots", "vspec_vsm/spots.py:SpotGenerator.generate_spots", "vspec_vsm/spots.py:SpotCollection.age", "vspec_vsm/faculae.py:FaculaGenerator.birth_faculae", "vspec_vsm/faculae.py:FaculaCollection.age", "vspec_vsm/star.py:Star.age"]}
{"id": "C171", "title": "The warnings of the package", "statement": "A report of a star issues exactly: for every facula that reaches a pixel, in order, a DeprecationWarning for the temperature of its wall and one for that of its floor, each followed by a RuntimeWarning if the temperature is outside of 2300 K to 3900 K, and then the resolution warning of the transit, if any; under a filter that turns warnings into exceptions the report returns exactly if no facula reaches a pixel and the resolution is good enough. Constructing a star warns exactly once for each generator with a spiral grid if the star's grid is rectangular, adding faculae once for each facula with such a grid, and faculae born on the star cost none. clip_teff, FaculaCollection.map_pixels, Facula.set_gridmaker and light curves with an exposure time always warn. The warnings change no result.", "quantifier": "all stars whose faculae are on the star's grid, all observers, planets and granulation coverages for which the report returns; all arguments of the other calls", "why_tests_cant": "the exact list of warnings for any number of faculae, where a test checks that some warning is issued", "anchors": ["vspec_vsm/star.py:Star.calc_coverage", "vspec_vsm/star.py:Star.add_faculae_to_map", "vspec_vsm/star.py:Star.__init__", "vspec_vsm/star.py:Star.add_fac", "vspec_vsm/helpers.py:clip_teff", "vspec_vsm/coordinate_grid.py:SpiralGrid.__eq__", "vspec_vsm/faculae.py:FaculaCollection.add_faculae", "vspec_vsm/faculae.py:FaculaCollection.map_pixels", "vspec_vsm/xoflares.py:get_light_curvenp"]}
{"id": "C172", "title": "The memory of the surface", "statement": "A star that started without spots is taken through N steps of birth and aging and then through M more. For any two regions of the surface, the covariance of the number of spots in the first region before the M steps and of the number of spots in the second after them is the mean number of spots lying in both regions that the star would still have if it aged for the same time without births. In particular the numbers in disjoint regions are uncorrelated at any two times, and a star remembers its surface exactly as long as its spots live. The same holds for faculae.", "quantifier": "all stars with sound generators and without spots (faculae) at the start, all numbers of steps and step lengths, all measurable regions, all probability spaces with fair draws", "why_tests_cant": "a covariance over all random draws at two times", "anchors": ["vspec_vsm/star.py:Star.birth_spots", "vspec_vsm/star.py:Star.birth_faculae", "vspec_vsm/star.py:Star.age", "vspec_vsm/spots.py:SpotGenerator.birth_spots", "vspec_vsm/spots.py:SpotCollection.age", "vspec_vsm/faculae.py:FaculaGenerator.birth_faculae", "vspec_vsm/faculae.py:FaculaCollection.age"]}
{"id": "C173", "title": "The light of a facula across the disk", "statement": "In the toy flux model of the example on the depth of faculae, with a wall brighter and a floor darker than the photosphere, there is one number d below 2, the same for every facula and star, such that a facula is darker than the photosphere exactly at angles below arctan(d*radius/depth) from the disk centre and brighter beyond. It is darkest at the centre, brightens strictly up to that angle, shows only its wall once depth*tan(angle) is twice the radius, and fades towards the limb like the cosine of the angle. If wall and floor differ equally from the photosphere, as in the example, d is between 0.75 and 0.9. A deeper facula is never dimmer. With the numbers of the example every facula takes away one part in 9000 at the centre.", "quantifier": "all brightnesses of wall and floor on either side of one, all stars, all faculae with a radius, a depth and different temperatures of wall and floor, all angles below 90 degrees", "why_tests_cant": "a statement on all angles and depth ratios about the place of a change of sign", "anchors": ["examples/plot_effect_facula_depth.py:relative_flux", "examples/plot_effect_facula_depth.py:make_fac", "vspec_vsm/faculae.py:Facula.effective_area", "vspec_vsm/helpers.py:calc_circ_fraction_inside_unit_circle", "vspec_vsm/helpers.py:round_teff"]}
{"id": "C174", "title": "The distribution of the numbers of flares", "statement": "The number of flares of a series above an energy (not below the minimum energy) and in a region of the star has a Poisson distribution with mean get_nexp_greater_than(energy, time) times the share of the region in the sphere. Its variance is therefore its mean, which is what the error bars of the example on flare frequencies use. The numbers of flares in two sets of energies and places that exclude each other are independent. No flare exceeds the energy with probability exp(-get_nexp_greater_than(energy, time)).", "quantifier": "all flare generators with sound settings, all durations, all energies not below the minimum, all measurable regions and sets, all probability spaces with fair draws", "why_tests_cant": "a distribution and an independence over all random draws", "anchors": ["vspec_vsm/flares.py:FlareGenerator.generate_flare_series", "vspec_vsm/flares.py:FlareGenerator.quantile_func", "vspec_vsm/flares.py:FlareGenerator.get_nexp_greater_than", "vspec_vsm/flares.py:FlareGenerator.gen_coords", "examples/plot_flare_frequency.py"]}
{"id": "C175", "title": "Random draws of flares in double precision", "statement": "For every number that numpy's generator can return (a multiple of 2^-53 in [0,1)), quantile_func in double precision is within a relative (74/|alpha| + 6)/2^53 of the exact quantile and never below min_energy, and no flare can be stronger than min_energy 2^(53/|alpha|), up to that error: about 2^64 times the minimum with the default exponent. Of these equally likely numbers, the share for which the energy exceeds E agrees with get_nexp_greater_than(E)/get_ntotal within (150 + 12|alpha|)/2^53. get_nexp_greater_than has a relative rounding error of at most 10/2^53, the latitudes drawn for flares, faculae and isotropic spots one of at most 14/2^53, and the longitudes, always at least 0 and below 360 degrees, one of at most 1/2^53.", "quantifier": "all 2^53 numbers that can be drawn, all generators with alpha <= -0.1 and a positive min_energy, all energies, durations, all mathematical libraries with a relative error of at most 2^-52", "why_tests_cant": "2^53 possible draws and all parameters", "anchors": ["vspec_vsm/flares.py:FlareGenerator.quantile_func", "vspec_vsm/flares.py:FlareGenerator.frequency_greater_than", "vspec_vsm/flares.py:FlareGenerator.get_nexp_greater_than", "vspec_vsm/flares.py:FlareGenerator.get_ntotal", "vspec_vsm/flares.py:FlareGenerator.gen_coords", "vspec_vsm/faculae.py:FaculaGenerator.get_coords", "vspec_vsm/spots.py:SpotGenerator.get_coordinates"]}
{"id": "C176", "title": "The coverage measured on a grid is on average exact", "statement": "SpotCollection.get_coverage counts pixels whose centres are covered, so on a coarse grid a single answer can be far off. On average over isotropically placed spots it is exact on every grid, however coarse: for n generated spots of initial area A0 the mean is 1 - (1 - A0/(4 pi R^2))^n, for the spots born in a time with x expected births it is 1 - exp(-x A0/(4 pi R^2)), and at the end of N steps of birth_spots and age it is 1 - exp(-c), where c is the mean of the summed shares of the surface that the spots cover; hence at most A/(4 pi R^2) with A the mean total area. This holds if every umbra is part of its spot; if some umbra is larger than its spot (a drawn area_over_umbra_area below 1), the mean is at least that.", "quantifier": "all isotropic spot generators, all rectangular and Fibonacci grids, all stellar radii, all numbers of spots and steps, all probability spaces with uniform places and normal sizes", "why_tests_cant": "an exact statement about a mean over all random draws, for every grid", "anchors": ["vspec_vsm/spots.py:SpotCollection.get_coverage", "vspec_vsm/spots.py:SpotGenerator.generate_spots", "vspec_vsm/spots.py:SpotGenerator.birth_spots", "vspec_vsm/star.py:Star.birth_spots", "vspec_vsm/star.py:Star.age"]}
{"id": "C177", "title": "The reported photosphere is on average exact", "statement": "Take a star without faculae. If n isotropic spots that are cooler than the photosphere are added to it, whatever spots it has already, the mean of the fraction that calc_coverage reports for the photosphere is exactly (1 - A0/(4 pi R^2))^n times the fraction that the same call reported before, and the same holds for the granules and for the fractions hidden by a planet. For a star that starts without spots the factor at the end of N steps of birth_spots and age is exp(-c), where c is the mean of the summed shares of the surface that the spots cover. No grid error is left in the mean, however coarse the grid; unlike C122 and C123 this is about the reported numbers, not about their limits on fine grids.", "quantifier": "all stars without faculae and with some photosphere left, all rectangular and Fibonacci grids of which something is visible, all observers, limb darkening laws, granulation fractions and planets (not larger than the star while behind it), all isotropic spot generators with umbrae inside their spots, all numbers of spots and steps", "why_tests_cant": "an exact statement about a mean over all random draws, for every grid and every observer", "anchors": ["vspec_vsm/star.py:Star.calc_coverage", "vspec_vsm/star.py:Star.add_faculae_to_map", "vspec_vsm/star.py:Star.birth_spots", "vspec_vsm/star.py:Star.age", "vspec_vsm/spots.py:SpotGenerator.generate_spots"]}
{"id": "C178", "title": "Times, widths and temperatures of generated flares in double precision", "statement": "With every operation rounded to a double, get_peaks(n) still returns n non-negative times in non-decreasing order, and they stay in order when they are multiplied by the length of the observation. The i-th time (from 0) differs from the one of exact arithmetic with the same random draws by a relative error of at most (i+12)/2^52, multiplied by the length by at most (i+14)/2^52: the running sum never loses a flare or swaps two of them. A temperature of gen_teffs is off by at most (mean + 3 |deviation|)/2^53, and a width of gen_fwhm by a relative error of at most 2^-45.", "quantifier": "all generators with a non-negative mean cluster size, 1 to 2^40 flares, all cluster sizes and waiting times drawn, all lengths of the observation; all temperature distributions; widths whose mean and drawn factor lie between 1e-8 and 1e8 days", "why_tests_cant": "rounding errors add up along the running sum; a test sees a few draws and compares them with other rounded numbers", "anchors": ["vspec_vsm/flares.py:FlareGenerator.get_peaks", "vspec_vsm/flares.py:FlareGenerator.gen_fwhm", "vspec_vsm/flares.py:FlareGenerator.gen_teffs", "vspec_vsm/flares.py:FlareGenerator.generate_flare_series"]}
{"id": "C179", "title": "Generated spots and faculae in double precision", "statement": "With every operation rounded to a double, generate_spots rejects the same batches of area ratios, raises in the same cases and returns the same number of spots as exact arithmetic with the same random draws. Each peak area has a relative error of at most 2^-44, each area ratio is positive with a relative error of at most 2^-53, and each place is off by at most (2 + 14 |angle|)/2^53 radians. generate_faculae likewise: largest radius, starting radius and lifetime have a relative error of at most 2^-46. No longitude reaches 360 degrees.", "quantifier": "all generators whose mean spot area lies within a factor of e^20 of a millionth of the hemisphere, all draws that change the area by at most a factor of e^20; all facula generators and draws that change radius and lifetime by at most a factor of 1e8; both distributions of latitude", "why_tests_cant": "errors in the exponent are multiplied by exp, and a test compares doubles with other doubles of a few draws", "anchors": ["vspec_vsm/spots.py:SpotGenerator.generate_spots", "vspec_vsm/spots.py:SpotGenerator.get_coordinates", "vspec_vsm/faculae.py:FaculaGenerator.generate_faculae", "vspec_vsm/faculae.py:FaculaGenerator.get_coords"]}
{"id": "C180", "title": "The report of a star in transit in double precision", "statement": "During a transit get_transit_mask in double precision gives exactly the value of exact arithmetic for every pixel that is more than 1e-5 (in the cosine) behind the limb, farther than two projected pixel radii and 0.0125 outside the edge of the planet, or as far inside it and neither at the limb nor at the centre of the disk. A pixel closer to the edge than two projected radii less 0.0125 gets what its Gaussian integral gives. calc_coverage then answers, the total shares have the error of C153, and each covered share has in addition at most the share of the light of the remaining pixels.", "quantifier": "all stars with spots on all grids of up to ten million pixels, all observers further than 1e-4 from the poles, all planets of up to forty stellar radii, all transits, all values of the Gaussian integrals of the pixels at the edge between 0 and 1", "why_tests_cant": "the comparison of two rounded distances flips in rare geometries that no test meets", "anchors": ["vspec_vsm/star.py:Star.get_transit_mask", "vspec_vsm/star.py:Star.calc_coverage", "vspec_vsm/helpers.py:proj_ortho"]}
{"id": "C181", "title": "A transit computed in double precision from the orbit to the report", "statement": "With every operation rounded, get_transit_mask recognises a planet behind the star without error and a planet away from the star up to 1e-4 stellar radii, and returns zeros for both; every covered share of calc_coverage is then exactly zero. No area of a pixel comes out negative, so every point radius is a number, right to 1e-5. With the rounded place and size of the planet calc_coverage answers during a transit, its total shares have the error of C153, and the covered shares in addition at most the share of the light of the pixels at the edge of the planet, at the limb and at the centre of the disk.", "quantifier": "all stars with spots on all grids of up to ten million pixels, all orbits of up to a million stellar radii, all phases of up to 16 radians, all inclinations, all planets of up to forty stellar radii", "why_tests_cant": "an area of -1e-17 at a pole would turn into NaN under the root, and the branch is chosen by comparing rounded numbers", "anchors": ["vspec_vsm/star.py:Star.get_transit_mask", "vspec_vsm/star.py:Star.calc_coverage", "vspec_vsm/coordinate_grid.py:RectangularGrid.area"]}
