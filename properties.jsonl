{"id": "C01", "title": "Scalar read-after-write through any view", "statement": "After `view.value = x` succeeds on a scalar view, reading `view.value` gives x back, and reading any other scalar view of the same parameter gives x converted from the first view's unit to the second view's unit.", "quantifier": "every reachable parameter-set state, every pair of scalar views of one parameter, every number x, every pair of convertible units", "why_tests_cant": "The storage unit is that of whichever view came first, so the identity has to survive every combination of three units and every history before the write.", "anchors": ["openscm/core/views.py:ScalarView.value", "openscm/core/units.py:UnitConverter"]}
{"id": "C02", "title": "Last write wins for scalar and generic parameters", "statement": "In any history of API calls, a scalar or generic view of a childless parameter reports the most recent successful write to that parameter (through any view), and raises ParameterEmptyError exactly when it was never written.", "quantifier": "every finite sequence of ParameterSet and view calls, failing calls included", "why_tests_cant": "It is a statement about all histories and all interleavings of views on shared parameters.", "anchors": ["openscm/core/views.py:ScalarView.value", "openscm/core/views.py:GenericView.value", "openscm/core/parameters.py:_Parameter"]}
{"id": "C03", "title": "A parameter's type is fixed by its first access", "statement": "Once a parameter has been requested as scalar, average timeseries, point timeseries or generic, its type never changes, and a request for it as any other type raises ParameterTypeError and changes nothing.", "quantifier": "every history of API calls after the first access, every pair of types", "why_tests_cant": "Needs an invariant over unbounded call sequences.", "anchors": ["openscm/core/parameters.py:_Parameter.attempt_read", "openscm/core/parameterset.py:ParameterSet.scalar", "openscm/core/parameterset.py:ParameterSet.timeseries", "openscm/core/parameterset.py:ParameterSet.generic"]}
{"id": "C04", "title": "Storage unit and time points are fixed by the first view", "statement": "The unit and (for timeseries) time points in which a parameter is stored are those of the first view requested; no later call changes them, and the stored array always has the length those time points require.", "quantifier": "every history of API calls, successful or failing", "why_tests_cant": "Needs an invariant over unbounded call sequences including failing ones.", "anchors": ["openscm/core/parameters.py:_Parameter.attempt_read", "openscm/core/parameters.py:_Parameter.attempt_write", "openscm/core/views.py:TimeseriesView._write"]}
{"id": "C05", "title": "A written parameter never gains children", "statement": "After a scalar, generic or timeseries parameter has been assigned through a view, it has no child parameters in any later state, and asking for a child of it raises ParameterWrittenError and changes nothing.", "quantifier": "every history, every parameter, every child name, every kind of view requested for the child", "why_tests_cant": "All later histories must be excluded.", "anchors": ["openscm/core/parameters.py:_Parameter.get_or_create_child_parameter", "openscm/core/parameters.py:_Parameter.attempt_write"]}
{"id": "C06", "title": "A viewed parameter never gains direct children", "statement": "After a view of a parameter has been handed out, its set of direct children is frozen: asking for a new child raises ParameterReadError (or ParameterWrittenError) and leaves the parameter set unchanged.", "quantifier": "every history, every parameter with a view, every new child name", "why_tests_cant": "All later histories must be excluded.", "anchors": ["openscm/core/parameters.py:_Parameter.get_or_create_child_parameter", "openscm/core/parameters.py:_Parameter.attempt_read"]}
{"id": "C07", "title": "Assigning to a parameter that has children is refused", "statement": "`view.value = x` / `view.values = xs` on a view of a parameter that has children raises ParameterReadonlyError and leaves every parameter, region and view unchanged.", "quantifier": "every reachable state, every view, every assigned value", "why_tests_cant": "Must hold for every tree shape and history.", "anchors": ["openscm/core/parameters.py:_Parameter.attempt_write", "openscm/core/views.py:ScalarView.value", "openscm/core/views.py:TimeseriesView.values", "openscm/core/views.py:GenericView.value"]}
{"id": "C08", "title": "Element assignment respects read-only parameters", "statement": "`view.values[i] = x` on a timeseries view of a parameter that has children raises ParameterReadonlyError and changes nothing, as whole-array assignment does.", "quantifier": "every reachable state, every timeseries view, every index and value", "why_tests_cant": "Whether any path around the write check exists is a question about all states. (The code violates it: no write check is made on element assignment.)", "anchors": ["openscm/core/views.py:_Timeseries.__setitem__", "openscm/core/views.py:TimeseriesView._write"]}
{"id": "C09", "title": "A fresh aggregated scalar view is the sum of all leaves", "statement": "A scalar view just obtained for a parameter with children, the childless descendants of which were requested as scalars, returns the sum, in the view's unit, of the values of all these descendants, each counted exactly once; it raises ParameterEmptyError if one of them was never written.", "quantifier": "every reachable hierarchy of scalar parameters of any depth and width, every unit", "why_tests_cant": "Trees of unbounded depth; each leaf exactly once.", "anchors": ["openscm/core/views.py:ScalarView.__init__", "openscm/core/views.py:ScalarView.value"]}
{"id": "C10", "title": "Aggregated scalar views stay up to date", "statement": "An aggregated scalar view obtained earlier keeps returning the sum of all current childless descendants of its parameter after any further calls.", "quantifier": "every history after the view was obtained", "why_tests_cant": "Any later history may add leaves. (The code violates it: a grandchild can be added below an intermediate parameter that was not itself viewed.)", "anchors": ["openscm/core/views.py:ScalarView.__init__", "openscm/core/parameters.py:_Parameter.get_or_create_child_parameter"]}
{"id": "C11", "title": "Aggregated timeseries views stay up to date", "statement": "A timeseries view of a parameter with children returns the element-wise sum of the children's current values on every read, also after children are rewritten.", "quantifier": "every history of writes to the children", "why_tests_cant": "Any interleaving of reads and child writes. (The code violates it: the cached array is refreshed only when the parent's own version changes.)", "anchors": ["openscm/core/views.py:TimeseriesView._read", "openscm/core/views.py:TimeseriesView._get_values"]}
{"id": "C12", "title": "Leaf timeseries views are never stale", "statement": "Reading `view.values` of a timeseries view on a childless parameter returns either exactly the array this view itself wrote last, if nobody wrote after it, or the current stored data converted to the view's unit and time points; in particular after another view's write the new data is seen.", "quantifier": "every history of unlocked views, every number of views on the parameter", "why_tests_cant": "Cache coherence over all interleavings of views.", "anchors": ["openscm/core/views.py:TimeseriesView._read", "openscm/core/views.py:TimeseriesView._write"]}
{"id": "C13", "title": "Timeseries read-own-write", "statement": "After `view.values = xs` succeeds, `view.values` returns exactly xs, whatever unit and time points the parameter is stored in, until somebody writes again; an xs whose length differs from `view.length` is refused with TimeseriesPointsValuesMismatchError.", "quantifier": "every reachable state, every view, every array, every later history without a write to that parameter", "why_tests_cant": "All storage units and grids, all later histories.", "anchors": ["openscm/core/views.py:TimeseriesView.values", "openscm/core/views.py:TimeseriesView._read"]}
{"id": "C14", "title": "The version number counts successful writes", "statement": "A parameter's version equals the number of successful writes (assignments, element assignments, unlocks) made to it through any view; it never decreases and a write to one parameter never changes another's.", "quantifier": "every history of API calls", "why_tests_cant": "Counting invariant over unbounded histories.", "anchors": ["openscm/core/views.py:ScalarView.value", "openscm/core/views.py:TimeseriesView._write", "openscm/core/views.py:GenericView.value", "openscm/core/parameters.py:ParameterInfo.version"]}
{"id": "C15", "title": "Parameters are isolated by name and region", "statement": "A write to one parameter leaves every other parameter (other name or other region) with the same data, unit, type, version and emptiness; in particular a write in a subregion never changes what is read for its parent region.", "quantifier": "every reachable state, every pair of distinct parameters", "why_tests_cant": "All pairs in all reachable states.", "anchors": ["openscm/core/parameterset.py:ParameterSet", "openscm/core/regions.py:_Region", "openscm/core/views.py"]}
{"id": "C16", "title": "Lookup finds exactly what was created", "statement": "`info(name, region)` is None exactly when no view was ever requested for that parameter or one below it in that region; otherwise it reports exactly that hierarchical name and region. It never changes the parameter set.", "quantifier": "every history, every region and every hierarchical name (what the empty tuple means is C17)", "why_tests_cant": "All histories and names.", "anchors": ["openscm/core/parameterset.py:ParameterSet.info", "openscm/core/regions.py:_Region.get_parameter", "openscm/core/parameters.py:_Parameter.get_subparameter", "openscm/core/parameters.py:_Parameter.full_name", "openscm/core/regions.py:_Region.full_name"]}
{"id": "C17", "title": "String and tuple names are interchangeable", "statement": "Giving a name or region as 'a|b|c' is the same as giving ('a','b','c'): splitting a joined name whose parts have no '|' returns the parts, and joining a split string returns the string.", "quantifier": "every string and every list of parts", "why_tests_cant": "All strings.", "anchors": ["openscm/core/parameters.py:HIERARCHY_SEPARATOR", "openscm/core/parameterset.py", "openscm/core/regions.py"]}
{"id": "C18", "title": "A refused write leaves no trace", "statement": "A write that raises leaves the parameter exactly as it was: in particular an empty parameter is still reported empty and reading it still raises ParameterEmptyError.", "quantifier": "every state, every refused write", "why_tests_cant": "All error paths in all states. (The code violates it: a wrong-length array marks the parameter as written before the length check.)", "anchors": ["openscm/core/views.py:TimeseriesView.values", "openscm/core/views.py:TimeseriesView._check_write", "openscm/core/parameters.py:_Parameter.attempt_write"]}
{"id": "C19", "title": "Locked views do not publish, unlock publishes", "statement": "While a timeseries view is locked, its writes change no stored data and no version; unlock stores the view's current array. Other views see either the old or the final array, never an intermediate one.", "quantifier": "every sequence of writes between lock and unlock", "why_tests_cant": "All sequences of writes of any length.", "anchors": ["openscm/core/views.py:TimeseriesView.lock", "openscm/core/views.py:TimeseriesView.unlock", "openscm/core/views.py:TimeseriesView._write"]}
{"id": "C20", "title": "A generic view of a parameter with children is always refused", "statement": "Requesting a generic view of a parameter that has children raises ParameterAggregationError every time.", "quantifier": "every reachable state", "why_tests_cant": "Needs all histories. (The code violates it: the second request succeeds because the first failing one already recorded the type.)", "anchors": ["openscm/core/parameters.py:_Parameter.attempt_read", "openscm/core/parameterset.py:ParameterSet.generic"]}
{"id": "C21", "title": "Emptiness means never assigned", "statement": "`view.empty` of a childless parameter is true exactly when no assignment to it was ever accepted, and `ensure()` raises ParameterEmptyError exactly then; reads of an empty childless parameter raise ParameterEmptyError.", "quantifier": "every history", "why_tests_cant": "All histories.", "anchors": ["openscm/core/parameters.py:ParameterInfo.empty", "openscm/core/parameters.py:ParameterInfo.ensure"]}
{"id": "C22", "title": "Converting to the same time points changes nothing", "statement": "Converting a timeseries of at least three values to its own (strictly increasing) time points returns the same values, for point and for average timeseries and every extrapolation type.", "quantifier": "every length >= 3, all strictly increasing time points, all values", "why_tests_cant": "All lengths, grids and values.", "anchors": ["openscm/core/time.py:TimeseriesConverter.convert_from", "openscm/core/time.py:_calc_integral_preserving_linear_interpolation", "openscm/core/time.py:_calc_interval_averages"]}
{"id": "C23", "title": "Average conversion preserves the mean of every source period", "statement": "For average timeseries the continuous representation integrates over each source period to value * period length; hence over any target grid that starts and ends at source period edges the total (sum of value * length) is preserved.", "quantifier": "every source grid (uniform or not), every value array, every target grid between two source edges", "why_tests_cant": "All grids; rounding-free identity for unbounded lengths.", "anchors": ["openscm/core/time.py:_calc_integral_preserving_linear_interpolation", "openscm/core/time.py:_calc_interval_averages"]}
{"id": "C24", "title": "Point interpolation interpolates", "statement": "For point timeseries the result at a target time equal to a source time is the source value, and between two neighbouring source times it is the straight line between their values, so it lies between them.", "quantifier": "all strictly increasing source times, all values, all target times in range", "why_tests_cant": "All grids and values.", "anchors": ["openscm/core/time.py:TimeseriesConverter._convert_unsafe", "openscm/core/time.py:TimeseriesConverter._calc_continuous_representation"]}
{"id": "C25", "title": "Straight lines are reproduced", "statement": "A timeseries sampled from a straight line (in particular a constant one) is converted to the same straight line: at every target time for point series (inside the range, or anywhere with linear extrapolation), and to its averages over the target intervals for average series.", "quantifier": "all lines, all strictly increasing source grids, all target grids", "why_tests_cant": "All grids and coefficients.", "anchors": ["openscm/core/time.py:TimeseriesConverter"]}
{"id": "C26", "title": "Extrapolation types do what they say", "statement": "Outside the source range a point conversion by a converter that could be created (see C27) raises InsufficientDataError with extrapolation 'none' (and only then), repeats the first/last value with 'constant', and continues the first/last segment with 'linear'.", "quantifier": "all source grids and values, all target times", "why_tests_cant": "All grids.", "anchors": ["openscm/core/time.py:TimeseriesConverter._get_scipy_extrapolation_args", "openscm/core/time.py:TimeseriesConverter._convert"]}
{"id": "C27", "title": "Conversion result length and short-data refusal", "statement": "A conversion either raises or returns exactly target_length values; with fewer than three values, or with a number of values that does not fit the time points, it raises InsufficientDataError. Creating a converter raises InsufficientDataError if and only if the source begins after the second target time.", "quantifier": "all inputs", "why_tests_cant": "All lengths.", "anchors": ["openscm/core/time.py:TimeseriesConverter._convert", "openscm/core/time.py:TimeseriesConverter.target_length"]}
{"id": "C28", "title": "Conversion is linear in the data", "statement": "Converting a*xs + b*ys gives a*convert(xs) + b*convert(ys): the conversion of a sum of sectors is the sum of the converted sectors.", "quantifier": "all coefficients, arrays and grids", "why_tests_cant": "All arrays.", "anchors": ["openscm/core/time.py:TimeseriesConverter"]}
{"id": "C29", "title": "create_time_points is equidistant and has the right length", "statement": "create_time_points(start, period, n, type) has n points (n+1 for averages), the i-th being start + i*period.", "quantifier": "all starts, periods and n >= 1", "why_tests_cant": "All n.", "anchors": ["openscm/core/time.py:create_time_points"]}
{"id": "C30", "title": "Decimal years convert faithfully to dates", "statement": "A year given as a float is converted to a time inside that calendar year; whole years give 1 January 00:00, the same as integer years; later decimal years never give earlier times.", "quantifier": "all decimal years, leap years included", "why_tests_cant": "All reals.", "anchors": ["openscm/core/time.py:_float_year_to_datetime", "openscm/core/time.py:_format_datetime", "openscm/core/time.py:TimePoints.years"]}
{"id": "C31", "title": "Timeseries type names", "statement": "from_timeseries_type accepts exactly 'average' and 'point' in any letter case (or the two enum values), is inverse to timeseries_type_to_string, and raises ValueError on everything else.", "quantifier": "all strings and enum values", "why_tests_cant": "All strings.", "anchors": ["openscm/core/parameters.py:ParameterType.from_timeseries_type", "openscm/core/parameters.py:ParameterType.timeseries_type_to_string"]}
{"id": "C32", "title": "Unit conversion round trip", "statement": "convert_to(convert_from(v)) = v and convert_from(convert_to(v)) = v for every unit converter, and the converter from a unit to itself is the identity.", "quantifier": "all convertible unit pairs (offset units such as degC/degF included), all numbers", "why_tests_cant": "All registries and values.", "anchors": ["openscm/core/units.py:UnitConverter"]}
{"id": "C33", "title": "Unit conversions compose", "statement": "Converting from A to B and then from B to C is the same as converting from A to C directly, offset units included.", "quantifier": "all triples of convertible units, all numbers", "why_tests_cant": "All triples.", "anchors": ["openscm/core/units.py:UnitConverter"]}
{"id": "C34", "title": "Incompatible or unknown units are refused", "statement": "A converter exists exactly when both units are known and (without a context) have the same dimensionality; otherwise UndefinedUnitError or DimensionalityError is raised, in a view request before any data is touched.", "quantifier": "all pairs of unit strings", "why_tests_cant": "All pairs.", "anchors": ["openscm/core/units.py:UnitConverter.__init__", "openscm/core/views.py:ScalarView.__init__"]}
{"id": "C35", "title": "Metric contexts convert emissions consistently", "statement": "In a GWP context with metric value g for a species, converting 1 unit of the species (bare, as mass, as flux, or as mass flux) to CO2 gives g, the reverse gives 1/g, and converting species X to species Y gives the ratio of their metric values; the path through carbon is the same whatever units are used.", "quantifier": "all species of the metric table, all metrics with a value, all four forms, all numbers", "why_tests_cant": "Every species pair and form.", "anchors": ["openscm/core/units.py:ScmUnitRegistry._load_metric_conversions"]}
{"id": "C36", "title": "Every gas unit of the table is usable in all its spellings", "statement": "Each gas symbol defines the symbol, its aliases, its upper-case spelling and the joint g/t mass units of both; all spellings of one gas convert into each other with factor 1, and the joint units equal mass times gas.", "quantifier": "all entries of the standard gas table", "why_tests_cant": "Whole-table statement over every spelling.", "anchors": ["openscm/core/units.py:_standard_gases", "openscm/core/units.py:ScmUnitRegistry._add_gases", "openscm/core/units.py:ScmUnitRegistry._add_mass_emissions_joint_version"]}
{"id": "C37", "title": "Adapters are loaded once and unknown models are refused", "statement": "load_adapter returns the same adapter class for a name on every call, raises KeyError for unknown names, and a failed load leaves the registry unchanged.", "quantifier": "all names, all call sequences", "why_tests_cant": "All call sequences.", "anchors": ["openscm/adapters/__init__.py:load_adapter"]}
{"id": "C38", "title": "A model is initialised exactly once and user parameters win over defaults", "statement": "Whatever order initialize_model_input, initialize_run_parameters, reset, run and step are called in, the model initialisation runs at most once and before the run; DICE defaults are written only to parameters the user left empty.", "quantifier": "all call orders, all sets of user-provided parameters", "why_tests_cant": "All call sequences.", "anchors": ["openscm/adapters/__init__.py:Adapter", "openscm/adapters/dice.py:DICE._initialize_model"]}
{"id": "C39", "title": "DICE outputs respect their bounds", "statement": "After every step the carbon pools are at or above their lower bounds, the ocean temperature is within its bounds and the atmospheric temperature is at or below its upper bound.", "quantifier": "all parameters (with lower <= upper bound), all emissions, all numbers of steps", "why_tests_cant": "All trajectories.", "anchors": ["openscm/adapters/dice.py:DICE._calc_step"]}
{"id": "C40", "title": "DICE conserves carbon", "statement": "While no lower bound is active, each step changes the total of the three carbon pools by exactly the emissions of the period (in GtC); over n steps the change is the sum of the emissions.", "quantifier": "all parameters, emissions and numbers of steps", "why_tests_cant": "All trajectories.", "anchors": ["openscm/adapters/dice.py:DICE._reset", "openscm/adapters/dice.py:DICE._calc_step"]}
{"id": "C41", "title": "DICE's equilibrium is a fixed point", "statement": "With zero emissions, pools at their equilibrium sizes stay there for every number of steps, provided that no lower bound lies above the equilibrium size of its pool.", "quantifier": "all equilibrium sizes at or above the lower bounds, all transfer coefficients, all numbers of steps", "why_tests_cant": "All numbers of steps.", "anchors": ["openscm/adapters/dice.py:DICE._reset", "openscm/adapters/dice.py:DICE._calc_step"]}
{"id": "C42", "title": "Running equals stepping", "statement": "run() leaves the same output data as reset_stepping() followed by one step() per remaining time point.", "quantifier": "all inputs and numbers of time points", "why_tests_cant": "All lengths; one path uses locked views, the other writes through.", "anchors": ["openscm/adapters/dice.py:DICE._run", "openscm/adapters/dice.py:DICE._step", "openscm/core/__init__.py:OpenSCM.run", "openscm/core/__init__.py:OpenSCM.step"]}
{"id": "C43", "title": "Runs are repeatable", "statement": "Running again without changing the inputs produces the same outputs, whatever was run or stepped before; nothing of a previous run leaks into the next.", "quantifier": "all inputs, all earlier histories of run and step", "why_tests_cant": "All histories.", "anchors": ["openscm/adapters/dice.py:DICE._reset", "openscm/core/__init__.py:OpenSCM.run", "openscm/core/__init__.py:OpenSCM.reset_stepping"]}
{"id": "C44", "title": "Stepping advances time by one period and stops at the end", "statement": "The k-th step after a reset returns start + k*period; there are int((stop-start)/period) steps, and one step more raises IndexError.", "quantifier": "all start/stop times, periods and k", "why_tests_cant": "All k.", "anchors": ["openscm/adapters/dice.py:DICE._calc_step", "openscm/adapters/dice.py:DICE._initialize_run_parameters", "openscm/adapters/__init__.py:Adapter.step"]}
{"id": "C45", "title": "Exogenous forcing ramps linearly and saturates", "statement": "The forcing by other gases is fex0 at the start, moves linearly towards fex1, equals fex1 from the saturation time on and never leaves the interval between fex0 and fex1.", "quantifier": "all fex0, fex1, start and saturation times, all steps", "why_tests_cant": "All steps.", "anchors": ["openscm/adapters/dice.py:DICE._calc_step"]}
{"id": "C46", "title": "Filtering keeps exactly the matching cells", "statement": "filter(keep=True, ...) keeps exactly the (timeseries, time) cells whose metadata and time match all filters, with their values; filter(keep=False, ...) keeps exactly the other cells. Together they partition the non-missing data.", "quantifier": "all data frames, all filters", "why_tests_cant": "All frames and filter sets.", "anchors": ["openscm/scmdataframe/base.py:ScmDataFrameBase.filter", "openscm/scmdataframe/base.py:ScmDataFrameBase._apply_filters"]}
{"id": "C47", "title": "Filters are idempotent and commute", "statement": "Applying the same filter twice is the same as once, and filtering by two conditions in either order gives the same data as filtering by both at once.", "quantifier": "all data frames, all filters", "why_tests_cant": "All frames and filter sets.", "anchors": ["openscm/scmdataframe/base.py:ScmDataFrameBase.filter"]}
{"id": "C48", "title": "Wildcard patterns match as documented", "statement": "A metadata filter string matches a value exactly when the value equals it with each '*' standing for any text; all other characters, in particular | . + ( ) $, are literal.", "quantifier": "all patterns and all values", "why_tests_cant": "All strings. (The code violates it for [ ] ? ^ { } and backslash, which are not escaped.)", "anchors": ["openscm/scmdataframe/filters.py:pattern_match"]}
{"id": "C49", "title": "Level filter counts hierarchy separators", "statement": "With level n, 'n-' or 'n+', a value matches exactly when the number of separators left after removing the pattern's fixed text is equal to, at most, or at least n; the three partition by depth.", "quantifier": "all values, levels and separators, all patterns without the characters that keep a special meaning (C48)", "why_tests_cant": "All strings.", "anchors": ["openscm/scmdataframe/filters.py:find_depth"]}
{"id": "C50", "title": "Month and weekday ranges", "statement": "Filtering months or weekdays by a list of names and increasing ranges such as ['Nov-Dec', 'Jan-Feb'] selects exactly the named ones.", "quantifier": "all lists of names and ranges", "why_tests_cant": "All lists. (The code violates it as soon as the list has two ranges: it deletes list entries by stale index.)", "anchors": ["openscm/scmdataframe/filters.py:time_match", "openscm/scmdataframe/filters.py:month_match", "openscm/scmdataframe/filters.py:day_match"]}
{"id": "C51", "title": "Renaming and metadata uniqueness", "statement": "rename replaces exactly the mapped values of the given columns, keeps data and order, refuses unknown columns, and refuses (leaving the original frame unchanged when not in place) results in which two timeseries have identical metadata.", "quantifier": "all frames and mappings", "why_tests_cant": "All frames.", "anchors": ["openscm/scmdataframe/base.py:ScmDataFrameBase.rename", "openscm/scmdataframe/base.py:ScmDataFrameBase.timeseries"]}
{"id": "C52", "title": "Appending keeps every value", "statement": "Appending frames yields for every metadata combination and time the average of the values the inputs have there (the value itself if only one has it); with non-overlapping inputs no value is lost, altered or invented, and the result does not depend on the order of the inputs. If some metadata has two values at one time, duplicate_msg='return' returns all input timeseries one by one and an unknown value raises ValueError; otherwise duplicate_msg makes no difference.", "quantifier": "all lists of frames", "why_tests_cant": "All frames and orders. (False when a metadata value is -999, which is turned into nan.)", "anchors": ["openscm/scmdataframe/base.py:df_append"]}
{"id": "C53", "title": "convert_unit converts exactly the selected rows", "statement": "convert_unit changes the values and unit of exactly the selected timeseries by the unit conversion, leaves all others unchanged, and on failure (unconvertible unit) the original frame is unchanged when not in place; converting there and back restores the values.", "quantifier": "all frames, selections and convertible units", "why_tests_cant": "All frames.", "anchors": ["openscm/scmdataframe/base.py:ScmDataFrameBase.convert_unit"]}
{"id": "C54", "title": "Reference period mean", "statement": "After relative_to_ref_period_mean each timeseries with data in the reference period has mean zero over that period, and differences between time points are unchanged.", "quantifier": "all frames and reference periods", "why_tests_cant": "All frames.", "anchors": ["openscm/scmdataframe/base.py:ScmDataFrameBase.relative_to_ref_period_mean"]}
{"id": "C55", "title": "Resampling range covers the data", "statement": "generate_range yields strictly increasing times that lie on the offset, starts at or before the first and ends at or after the last data time, with no offset time skipped.", "quantifier": "all start/end times, all offsets", "why_tests_cant": "All ranges. (The code violates covering for multiples such as '2AS'.)", "anchors": ["openscm/scmdataframe/offsets.py:generate_range", "openscm/scmdataframe/offsets.py:to_offset", "openscm/scmdataframe/base.py:ScmDataFrameBase.resample"]}
{"id": "C56", "title": "Interpolating a frame with point and average timeseries", "statement": "interpolate puts every timeseries, point or average, on the requested times.", "quantifier": "all frames that mix both kinds", "why_tests_cant": "All frames. (The code violates it: the extended time axis of the averages is reused for the points.)", "anchors": ["openscm/scmdataframe/base.py:ScmDataFrameBase.interpolate"]}
{"id": "C57", "title": "Data frame to parameter set and back", "statement": "to_parameterset followed by convert_openscm_to_scmdataframe on the same time points returns every timeseries with its values, variable, region and unit.", "quantifier": "all frames of numbers with at least two times and one timeseries per variable and region that to_parameterset accepts", "why_tests_cant": "All frames and hierarchies of regions and variables; the tests convert a few flat examples.", "anchors": ["openscm/scmdataframe/base.py:ScmDataFrameBase.to_parameterset", "openscm/scmdataframe/__init__.py:convert_openscm_to_scmdataframe"]}
{"id": "C58", "title": "Guessing the parameter type", "statement": "With a known unit the guess is 'average' exactly when the unit has a time dimension; with an unknown or missing unit it follows the first matching name pattern, and 'point' if none matches.", "quantifier": "all variable names and units", "why_tests_cant": "All strings.", "anchors": ["openscm/scmdataframe/parameter_type.py:guess_parameter_type"]}
{"id": "C59", "title": "Frame construction broadcasts metadata", "statement": "Constructing a frame from an array and columns gives each timeseries the metadata listed for it, a length-1 list (or scalar) applying to all; missing required columns and wrong lengths raise ValueError; columns come out as the required ones first, then the others sorted.", "quantifier": "all arrays and column dictionaries", "why_tests_cant": "All lengths.", "anchors": ["openscm/scmdataframe/base.py:_from_ts", "openscm/scmdataframe/base.py:ScmDataFrameBase._sort_meta_cols"]}
{"id": "C60", "title": "Gases convert into each other only within the same gas", "statement": "Without a context two entries of the standard gas table convert into each other exactly when they are reported in the same element or are the same gas, by a non-zero factor; every other pair, also as joint mass units, is refused with DimensionalityError.", "quantifier": "all pairs of entries of the gas table", "why_tests_cant": "104 x 104 pairs and their joint units.", "anchors": ["openscm/core/units.py:_STANDARD_GASES", "openscm/core/units.py:ScmUnitRegistry._add_gases"]}
{"id": "C61", "title": "Methane and NOx contexts", "statement": "CH4 and C, and NOx and N, are inconvertible without a context. In the context CH4_conversions 1 CH4 is 0.75 C and 2.75 CO2, in NOx_conversions 1 NOx is 14/46 N and 44/46 N2O, and back the reciprocal; in these contexts only bare gas units convert: masses, fluxes and other gases stay refused.", "quantifier": "all units of the dimensions concerned", "why_tests_cant": "All prefixed and compound units.", "anchors": ["openscm/core/units.py:ScmUnitRegistry._load_contexts", "openscm/core/units.py:UnitConverter"]}
{"id": "C62", "title": "Statistics over groups of timeseries", "statement": "process_over(cols, operation) returns exactly one row for each combination of the remaining metadata columns, holding at each time the mean, the median or the requested quantile of the values which the timeseries with that metadata have at that time, missing values left out. Every timeseries belongs to one group. Quantiles lie between minimum (q = 0) and maximum (q = 1), grow with q, and the median is the quantile of 0.5. Operations other than these raise ValueError.", "quantifier": "all frames, column lists, operations and quantiles", "why_tests_cant": "All group structures and patterns of missing values.", "anchors": ["openscm/scmdataframe/base.py:ScmDataFrameBase.process_over"]}
{"id": "C63", "title": "Resampling", "statement": "resample(rule) puts every timeseries on the steps of the rule: from the last step that is not after the first time to the first step that is not before the last time, without gaps, at the time of day of the first time. Metadata stays. Values of point timeseries at times that stay do not change, and in between they lie on the line through the neighbouring values. Resampling again with the same rule changes nothing.", "quantifier": "all frames, rules and times", "why_tests_cant": "All calendars and spacings of times.", "anchors": ["openscm/scmdataframe/base.py:ScmDataFrameBase.resample", "openscm/scmdataframe/offsets.py:generate_range"]}
{"id": "C64", "title": "Item access of frames", "statement": "df[key] = value is accepted if and only if key is not empty and value is one value for all timeseries or a list with one value per timeseries (for \"time\": with one time per time of the frame). Afterwards df[key] returns what was assigned last; all other items, the values and the times stay. A refused assignment changes nothing. df[\"year\"] returns the years of the times. Reading several items returns their columns in the order of the keys; unknown keys raise KeyError.", "quantifier": "all frames and all sequences of assignments, accepted or refused", "why_tests_cant": "All sequences of assignments to all keys.", "anchors": ["openscm/scmdataframe/base.py:ScmDataFrameBase.__getitem__", "openscm/scmdataframe/base.py:ScmDataFrameBase.__setitem__", "openscm/scmdataframe/base.py:ScmDataFrameBase.set_meta"]}
{"id": "C65", "title": "Frames from long tables", "statement": "ScmDataFrame(table) for a table with one value per row (columns model, scenario, region, variable, unit, value and either year or time, in any case and order, possibly as index levels) has exactly one timeseries for each combination of metadata found in rows without missing metadata. Its times are those of these rows in increasing order, years meaning their 1 January. The value of a timeseries at a time is the mean of the numbers in the rows with this metadata and this time; there is none if there are no such rows. The order of the rows makes no difference. Missing required columns, and both or neither of year and time, raise ValueError.", "quantifier": "all tables", "why_tests_cant": "All patterns of duplicate, missing and disordered rows.", "anchors": ["openscm/scmdataframe/base.py:_format_data", "openscm/scmdataframe/base.py:_format_long_data"]}
{"id": "C66", "title": "Frames from wide tables", "statement": "ScmDataFrame(table) for a table with a column for each time has one timeseries per row, in the order of the rows, with the metadata of the row, the times of the columns in increasing order and the numbers of the row at these times. Tables without a column for a time raise ValueError. The frame read from the table that timeseries() returns has the same timeseries, metadata and values.", "quantifier": "all tables and all frames", "why_tests_cant": "All labels, metadata and orders of columns.", "anchors": ["openscm/scmdataframe/base.py:_format_data", "openscm/scmdataframe/base.py:_format_wide_data", "openscm/scmdataframe/base.py:ScmDataFrameBase.timeseries"]}
{"id": "C67", "title": "Programs that use several frames", "statement": "However frames are made, copied, wrapped, filtered, renamed, converted to other units, appended, interpolated, resampled and assigned to, in place or not, and whichever calls are refused, every frame has one value per time for each timeseries, one row of metadata per timeseries, every required column once, and df['time'] gives the times of the data. A call changes no frame but the one it is applied to in place. In place or not, a call raises the same error, and in place it leaves the frame that it returns otherwise. A refused call that is not in place changes nothing.", "quantifier": "all sequences of calls on any number of frames", "why_tests_cant": "All interleavings of calls on frames that share data, and what refused calls leave behind.", "anchors": ["openscm/scmdataframe/base.py:ScmDataFrameBase.__init__", "openscm/scmdataframe/base.py:ScmDataFrameBase.copy", "openscm/scmdataframe/base.py:ScmDataFrameBase.filter", "openscm/scmdataframe/base.py:ScmDataFrameBase.rename", "openscm/scmdataframe/base.py:ScmDataFrameBase.convert_unit", "openscm/scmdataframe/base.py:df_append", "openscm/scmdataframe/base.py:ScmDataFrameBase.interpolate", "openscm/scmdataframe/base.py:ScmDataFrameBase.resample", "openscm/scmdataframe/base.py:ScmDataFrameBase.__setitem__"]}
{"id": "C68", "title": "Timeseries stay distinguishable", "statement": "If any two timeseries of each frame differ in their metadata, this is still so after any sequence of calls that do not assign metadata: copying, filtering, renaming, appending, unit conversion, interpolation, resampling, in place or not, refused or not, and for frames read from long tables. timeseries() works exactly for the frames whose timeseries differ and raises ValueError for the others.", "quantifier": "all sequences of calls on any number of frames", "why_tests_cant": "All combinations of metadata in all frames and all interleavings of calls.", "anchors": ["openscm/scmdataframe/base.py:ScmDataFrameBase.timeseries", "openscm/scmdataframe/base.py:ScmDataFrameBase.rename", "openscm/scmdataframe/base.py:ScmDataFrameBase.convert_unit", "openscm/scmdataframe/base.py:ScmDataFrameBase.interpolate", "openscm/scmdataframe/base.py:df_append"]}
{"id": "C69", "title": "Metadata by index", "statement": "set_meta(values, name, index) with an index over metadata columns or over positions keeps the values and all other metadata of every timeseries, and gives it in the column `name` the value whose key is its own (NaN if there is none). Keys that no timeseries has and keys listed twice add no metadata, and a column that exists is replaced. No name is a ValueError, an index over columns the frame does not have a KeyError.", "quantifier": "all frames, indexes and values", "why_tests_cant": "All orders of timeseries and of keys, and all combinations of keys that some timeseries have.", "anchors": ["openscm/scmdataframe/base.py:ScmDataFrameBase.set_meta", "openscm/scmdataframe/base.py:ScmDataFrameBase.timeseries"]}
{"id": "C70", "title": "Elements of timeseries", "statement": "`view.values[j]` is the element of `view.values` at position j, counted from the end if j is negative, and raises IndexError outside. Assigning elements (one, a slice, a mask, a list of positions; through the view or an array obtained earlier) changes exactly these elements, where the last assignment to a position counts, and `view.values += x` and other operations in place change every element as the operation says. A refused assignment to positions outside changes nothing.", "quantifier": "all states, views, positions and values", "why_tests_cant": "All arrays, all lists of positions with repetitions and negative positions.", "anchors": ["openscm/core/views.py:_Timeseries.__getitem__", "openscm/core/views.py:_Timeseries.__setitem__", "openscm/core/views.py:_Timeseries.__array_ufunc__"]}
{"id": "C71", "title": "Views in different units show the same quantity", "statement": "Two views of one parameter that differ only in their unit show the same quantity: converting the number that a scalar view shows, or every number that a timeseries view shows, to the unit of another view on the same time points gives what that view shows, also if time points are converted on the way, and if one of them raises when it is read so does the other. This holds for parameters with and without children.", "quantifier": "all histories of calls, all units of one dimension, all time points, types and kinds of extrapolation", "why_tests_cant": "Unit and time conversion compose for all scales, offsets and axes only because interpolation, averaging and extrapolation commute with affine maps, which samples cannot show.", "anchors": ["openscm/core/views.py:ScalarView.value", "openscm/core/views.py:TimeseriesView.values", "openscm/core/units.py:UnitConverter", "openscm/core/time.py:TimeseriesConverter"]}
{"id": "C72", "title": "Converting units and interpolating commute", "statement": "`df.convert_unit(u, **filters).interpolate(times)` and `df.interpolate(times).convert_unit(u, **filters)` give the same times, values and metadata, for filters on columns other than the unit, its context and the type, and one of the interpolations succeeds if and only if the other does.", "quantifier": "all frames, registries of units, filters, times, kinds of extrapolation and types", "why_tests_cant": "The two orders agree for all values, scales, offsets and axes; which timeseries are selected and what type is guessed depends on values and units that the first call changes.", "anchors": ["openscm/scmdataframe/base.py:convert_unit", "openscm/scmdataframe/base.py:interpolate", "openscm/scmdataframe/parameter_type.py:guess_parameter_type"]}
{"id": "C73", "title": "Only quantities of the same kind are aggregated", "statement": "A scalar (timeseries) view of a parameter is granted only if every leaf below the parameter is a scalar (timeseries) in a unit that can be converted to the one asked for. A scalar view is granted if so and the parameter exists and has no other type. If leaves hold generic values, and all other leaves can be converted, the request fails with `TypeError`.", "quantifier": "all programs before the request, all names, regions, units and time points", "why_tests_cant": "Depth and number of the descendants, and the order in which parameters were created and typed, are unbounded; every leaf has to be checked in every such history.", "anchors": ["openscm/core/views.py:ScalarView.__init__", "openscm/core/views.py:TimeseriesView.__init__", "openscm/core/parameterset.py:scalar", "openscm/core/parameterset.py:timeseries", "openscm/core/units.py:UnitConverter.__init__"]}
{"id": "C74", "title": "Unit converters do not depend on what was converted before", "statement": "Whatever converters have been requested before, with or without contexts, successfully or not, a request gives the same converter or raises the same error as right after import: no context stays active. Unknown units are refused first (UndefinedUnitError), then unknown contexts (KeyError). A metric allows exactly the conversions allowed without it and those between gases of the metric table (or CO2) in the same of the four forms. The list of contexts a converter shows names those of openscm only once a context has been asked for with two known units.", "quantifier": "all sequences of requests, all units, contexts and registries that contain the gases", "why_tests_cant": "The unit registry is global and changes on first use; every history of requests, including failing ones, would have to be tried.", "anchors": ["openscm/core/units.py:ScmUnitRegistry.enable_contexts", "openscm/core/units.py:ScmUnitRegistry._load_contexts", "openscm/core/units.py:UnitConverter.__init__", "openscm/core/units.py:UnitConverter.contexts"]}
{"id": "C75", "title": "Converting to other times keeps the range of the data", "statement": "The values a timeseries is converted to lie between the smallest and the largest value it was given with, unless they are extrapolated linearly; so emissions that are never negative stay so. (Holds for point timeseries. Averages can leave the range, by at most half of its width.)", "quantifier": "all source and target times, values and kinds of extrapolation", "why_tests_cant": "Overshoot depends on the shape of the data and on where the target periods lie; tests with smooth data do not show it.", "anchors": ["openscm/core/time.py:TimeseriesConverter._convert", "openscm/core/time.py:TimeseriesConverter._calc_interval_averages", "openscm/core/time.py:TimeseriesConverter._calc_linearization_values"]}
{"id": "C76", "title": "Going to finer times and back loses nothing", "statement": "A timeseries converted to time points that include its own, within or beyond them, and back is exactly what it was, for points and for averages and whatever the kinds of extrapolation. Hence what is assigned through a view on some of the time points a parameter is stored on is what every view on the same time points, obtained later and in any unit, shows, as long as nothing else is stored in between.", "quantifier": "all source and target times, values, kinds of extrapolation and all histories of a parameter set", "why_tests_cant": "Needs exactness for every grid, every subdivision and every unit; floating-point tests sample a few with tolerances.", "anchors": ["openscm/core/time.py:TimeseriesConverter._convert", "openscm/core/time.py:TimeseriesConverter.convert_from", "openscm/core/time.py:TimeseriesConverter.convert_to", "openscm/core/views.py:TimeseriesView.values"]}
{"id": "C77", "title": "Emissions frames in a metric", "statement": "convert_unit(unit, context=metric) multiplies the values of every selected timeseries of a gas by the ratio of the warming potentials of this gas and the wanted one (and by the ratio of the units), gives missing values where the metric has no value, notes unit and metric and keeps all other metadata. It works exactly if each selected unit has the dimension of the wanted one or both stand for gases of the metric in the same form, whatever has been converted before. To another gas and back in the same metric restores all values and units.", "quantifier": "all frames, filters, gases, metrics, units of the four forms, and all earlier conversions", "why_tests_cant": "All gases, units and metrics and every state of the global unit registry.", "anchors": ["openscm/scmdataframe/base.py:ScmDataFrameBase.convert_unit", "openscm/core/units.py:UnitConverter.__init__", "openscm/core/units.py:ScmUnitRegistry._load_metric_conversions"]}
{"id": "C78", "title": "Metadata of frames in parameter sets", "statement": "A frame becomes a parameter set only if all timeseries share all metadata other than variable, region, unit and parameter_type (missing equals missing) and no climate model other than 'unspecified' is given; otherwise to_parameterset raises ValueError and a given set stays as it is. Each shared column is then in the set: a generic value of the same name in World, or, if its name ends in a unit in brackets, a scalar that reads as the given number in this unit (a frame with anything but a number in such a column is refused). A frame made from the set has all of it in every timeseries (scalars as floats), no other columns than those of the frame and the standard ones, and model, scenario and climate_model given as arguments are used exactly if the set does not hold them.", "quantifier": "all frames with increasing times and numbers and pairwise different variables and regions, all metadata, all arguments", "why_tests_cant": "Names and values of metadata are arbitrary text, numbers or missing, and the calls that store them may collide with any others in the set.", "anchors": ["openscm/scmdataframe/base.py:ScmDataFrameBase.to_parameterset", "openscm/scmdataframe/__init__.py:convert_openscm_to_scmdataframe"]}
{"id": "C79", "title": "Requests change no values", "statement": "Requesting regions and views, whether the request is granted or refused, changes nothing that can be read: any read through an existing view (values, elements, arrays handed out before, length, ensure(), version and emptiness) that succeeds before gives the same after any list of requests, and info of a parameter keeps name, region, emptiness and version, and everything else once the parameter has a type.", "quantifier": "all reachable parameter sets, all lists of requests, all views", "why_tests_cant": "A request extends the tree, sets types, units and time points of parameters and freezes others; whether one of these effects leaks into a view handed out long ago depends on the whole history.", "anchors": ["openscm/core/parameterset.py:ParameterSet", "openscm/core/parameters.py:_Parameter.attempt_read", "openscm/core/views.py"]}
{"id": "C80", "title": "Filtering and appending commute", "statement": "Filtering an appended frame gives the same values, for the same metadata and times, as appending the filtered frames, also where values were averaged; for frames that either all have or all lack the metadata that a filter names, and without metadata -999 (C52).", "quantifier": "all lists of frames, all filters, keep or not", "why_tests_cant": "Appending rearranges columns, fills missing metadata, unites times and averages; filters look at columns by name and at each cell. Only for all frames and filters together is it clear that none of this interferes.", "anchors": ["openscm/scmdataframe/base.py:df_append", "openscm/scmdataframe/base.py:ScmDataFrameBase.filter"]}
{"id": "C81", "title": "Appending step by step", "statement": "Appending frames one after the other gives the same values as appending them all at once (df_append is documented as only more efficient).", "quantifier": "all lists of frames", "why_tests_cant": "Tests append two or three frames without overlap; it fails exactly where values are averaged more than once.", "anchors": ["openscm/scmdataframe/base.py:df_append", "openscm/scmdataframe/base.py:ScmDataFrameBase.append"]}
{"id": "C82", "title": "Statistics and unit conversion commute", "statement": "For frames in one unit, the mean, median or quantile over groups of the converted frame is the converted mean, median or quantile of the frame, for the same groups, also with offsets (temperatures) and with the metrics of contexts.", "quantifier": "all frames, registries, units, metrics, columns to process over and quantiles", "why_tests_cant": "Tests compute statistics in one unit and convert single timeseries; that both go together needs that every group is kept and that order and interpolation of quantiles survive conversion, for all values. It fails without context because conversion adds a column of missing metadata.", "anchors": ["openscm/scmdataframe/base.py:ScmDataFrameBase.process_over", "openscm/scmdataframe/base.py:ScmDataFrameBase.convert_unit"]}
{"id": "C83", "title": "Anomalies do not depend on the unit's offset", "statement": "Taking values relative to the mean of a reference period after converting units gives, for every converted timeseries, the anomalies before conversion times the scaling factor between the units (times the metric's factor with a context), whatever the offset of the units; other timeseries have the same anomalies, and all have the same metadata except for unit and context.", "quantifier": "all frames, registries, units, contexts, reference filters not about units and selections of timeseries to convert", "why_tests_cant": "Tests take anomalies of a small frame in one unit; that the offset cancels for all values and all choices of the reference period, also with offsets such as degrees Celsius, needs a proof over the mean.", "anchors": ["openscm/scmdataframe/base.py:ScmDataFrameBase.relative_to_ref_period_mean", "openscm/scmdataframe/base.py:ScmDataFrameBase.convert_unit"]}
{"id": "C84", "title": "Missing values are missed only where they matter", "statement": "If some values of a timeseries are missing (NaN), converting it to other time points gives a number exactly where the result is the same whatever the missing values may have been (point timeseries); for averages numbers never depend on missing values, and there is a number wherever the averages of all periods the target period has something of, and of their neighbours, are known.", "quantifier": "all source and target time points, values, positions of missing values, types and extrapolations", "why_tests_cant": "Tests convert complete timeseries. That nothing is made up from missing values, and nothing known is lost, needs a comparison of results for all possible values in their place, at all positions and grids.", "anchors": ["openscm/core/time.py:TimeseriesConverter._convert", "openscm/core/time.py:TimeseriesConverter._calc_continuous_representation", "openscm/core/time.py:_calc_integral_preserving_linear_interpolation", "openscm/core/time.py:_calc_interval_averages"]}
{"id": "C85", "title": "The options of a view mean what they say", "statement": "What is assigned through a view on the stored time points is seen through any other view obtained later, whatever its unit, time points and options, as these say: for points on the lines between the assigned values converted to the unit, outside of their range the first or last value ('constant'), the continued first or last segment ('linear') or, exactly if a time lies outside, InsufficientDataError ('none'); for averages with the totals between stored bounds kept. Options may be given by name in any letter case or as member of the enum; any other name is refused with ValueError (type) or KeyError (interpolation, extrapolation) and changes nothing.", "quantifier": "all histories with nothing else stored between assignment and reading, all time points, units, arrays of numbers and option arguments", "why_tests_cant": "The tests check conversion and views separately on a few grids. That the option given to a view is the one applied to what another view wrote, in every unit and at every time, is a statement about all pairs of views and all options together.", "anchors": ["openscm/core/parameterset.py:ParameterSet.timeseries", "openscm/core/views.py:TimeseriesView", "openscm/core/time.py:ExtrapolationType.from_extrapolation_type", "openscm/core/time.py:InterpolationType.from_interpolation_type", "openscm/core/parameters.py:ParameterType.from_timeseries_type", "openscm/core/time.py:TimeseriesConverter"]}
{"id": "C86", "title": "The version names the checkout", "statement": "`openscm.__version__` of a source tree under git is the tag without its prefix if exactly a tagged commit without local changes is checked out, in every style except git-describe-long, which is what git describe prints without the prefix; otherwise it tells tag, commits since then, abbreviated commit and whether there are local changes, so that trees differing in one of these have different versions, and it contains at most one '+' if the tag does. In an archive it is the first tag of the commit by code points with the prefix, '0+unknown' if there is none. Without git it is what follows 'openscm-' in the name of the innermost of the three directories around the file that is called so, '0+unknown' with an error if none is. The date is that of the commit in ISO form.", "quantifier": "all tags, hyphens and digits in them included, numbers of commits, hashes, lists of references, names of directories and dates", "why_tests_cant": "The version of the one checkout the tests run in is all they see; that hyphens, digits and 'g' in tags cannot be confused with the parts git appends holds or fails for all tags.", "anchors": ["openscm/_version.py:get_versions", "openscm/_version.py:git_pieces_from_vcs", "openscm/_version.py:git_versions_from_keywords", "openscm/_version.py:render", "openscm/_version.py:render_pep440", "openscm/_version.py:versions_from_parentdir"]}
{"id": "C87", "title": "Frames go through pyam and back", "statement": "A frame given to pyam by `to_iamdataframe()` and made a frame again has the timeseries that have all of their metadata and some value, each with the same metadata and values, and the times at which one of these has a value; nothing is averaged or made up. A long table read through pyam gives the very frame that it gives when read directly. pyam takes a long table exactly if no two complete rows agree in everything but the value and the times all are datetimes or all are text that reads as a time (or years are given), and keeps the complete rows in order with their metadata, numbers and times.", "quantifier": "all frames and tables, missing values and metadata included", "why_tests_cant": "The tests send a few frames through pyam with years as times and complete metadata and compare them with themselves. Which timeseries, times and rows are lost, and that all others come back unchanged, depends on what is missing where.", "anchors": ["openscm/scmdataframe/base.py:ScmDataFrame.to_iamdataframe", "openscm/scmdataframe/pyam_compat.py:LongDatetimeIamDataFrame", "openscm/scmdataframe/base.py:_format_data"]}
{"id": "C88", "title": "Frames are made from and appended to any source", "statement": "`ScmDataFrame(path)` is the frame made from the table in that file: of a csv file if the name ends in csv, else of the sheet that was asked for, of the only sheet, or of the sheet `data` if there are several; files that do not exist raise OSError, other things than arrays, frames, tables and names raise TypeError, and lists of names ValueError. A frame made from a frame has its values, times and metadata with the columns in order, and making it again changes nothing. `df_append(sources)` is the append of the frames made from the sources; a source that is refused raises its error and nothing changes. `df.append(other)` is `df_append([df, other])`. In place, the first frame becomes what is returned otherwise, nothing else changes, and TypeError is raised if it is no frame; nothing changes if the call fails.", "quantifier": "all sources, files and workbooks, lists of sources, options", "why_tests_cant": "The tests read a few files and append a few frames. The choice of the sheet, the errors and what stays unchanged depend on every combination of sources and options.", "anchors": ["openscm/scmdataframe/base.py:ScmDataFrameBase.__init__", "openscm/scmdataframe/base.py:_read_file", "openscm/scmdataframe/base.py:_read_pandas", "openscm/scmdataframe/base.py:ScmDataFrameBase.append", "openscm/scmdataframe/base.py:df_append"]}
{"id": "C89", "title": "Tables of chosen metadata", "statement": "`timeseries(meta=columns)` has a row for each timeseries in order, with its values and its metadata in the chosen columns. It is accepted exactly if at least one column is chosen, all exist, and no two timeseries have the same metadata in all of them; otherwise KeyError for unknown columns, else ValueError. More columns never make an accepted call fail. Without `meta` all columns are chosen, and `values` are the values of that table. `head(n)` and `tail(n)` are its first and last n rows, or lack the last and first -n rows for negative n, and together they make up the table. A frame read from a table of columns that include the required ones, none of them called `value` or by a name that reads as a time, with times in the years 1 to 9999, has the same values and the same metadata in these columns.", "quantifier": "all frames, lists of columns and numbers", "why_tests_cant": "The tests choose two lists of columns of one frame. Which columns tell the timeseries of a frame apart depends on all metadata.", "anchors": ["openscm/scmdataframe/base.py:ScmDataFrameBase.timeseries", "openscm/scmdataframe/base.py:ScmDataFrameBase.values", "openscm/scmdataframe/base.py:ScmDataFrameBase.head", "openscm/scmdataframe/base.py:ScmDataFrameBase.tail"]}
{"id": "C90", "title": "More emissions never mean less carbon or warming in DICE", "statement": "Of two runs of DICE that differ only in emissions and in the state at the start, the one with at least as high emissions in every period and at least as much carbon and warmth in the beginning shows at least as much carbon in every pool, forcing and temperature at every time. So does the one with the higher climate sensitivity, as long as temperatures of the other are not negative. This holds for all parameters with which no pool gives away more than it has in a step and no layer cools below its surroundings, and the defaults are such parameters. A whole run with inputs that are numbers shows numbers only.", "quantifier": "all scenarios, numbers of steps, states before, parameters as stated, and increasing functions for the logarithm", "why_tests_cant": "The tests compare one run with a reference. Order has to hold for all pairs of scenarios, with bounds reached or not.", "anchors": ["openscm/adapters/dice.py:DICE._calc_step", "openscm/adapters/dice.py:DICE._run", "openscm/adapters/dice.py:DICE._reset"]}
{"id": "C91", "title": "DICE shows no effect before its cause and mixes carbon linearly", "statement": "What DICE shows up to a time depends only on its parameters and on the emissions of the periods before it as the model reads them: not on later emissions, the stop time, how far the model is run or whether by steps or by a run. The carbon pools for a mixture of the emissions and initial pools of two scenarios are the mixture of the pools of both, as long as no pool of the two is at its lower bound.", "quantifier": "all pairs and triples of scenarios, numbers of steps, states before and weights between 0 and 1", "why_tests_cant": "Tests run single scenarios; the claim is about all pairs of scenarios.", "anchors": ["openscm/adapters/dice.py:DICE._calc_step", "openscm/adapters/dice.py:DICE._run", "openscm/adapters/dice.py:DICE._reset"]}
{"id": "C92", "title": "Time conversion depends neither on the origin nor on the unit of time", "statement": "If the source and target time points of two converters are the same times, counted from another origin or in another unit, both are accepted or refused with the same error, and in both directions they give the same values or the same error, with missing values in the same places.", "quantifier": "all time points in any order, values with or without missing ones, parameter types, extrapolations, origins and positive ratios of units", "why_tests_cant": "Tests use a few time axes in seconds from 1970 on; the claim compares all pairs of clocks.", "anchors": ["openscm/core/time.py:TimeseriesConverter.__init__", "openscm/core/time.py:TimeseriesConverter._convert", "openscm/core/time.py:TimeseriesConverter._calc_interval_averages"]}
{"id": "C93", "title": "Selecting timeseries commutes with working on them", "statement": "For a frame without missing values, selecting timeseries by metadata and then interpolating, converting units or taking anomalies from a reference period gives the same as doing so first and selecting afterwards. If a frame of timeseries with types can be interpolated, so can every selection of it, and what is selected does not depend on the order.", "quantifier": "all frames without missing values, filters about metadata that the operation does not set, target times, units and reference periods", "why_tests_cant": "Tests apply filters and operations to a few frames, in one order.", "anchors": ["openscm/scmdataframe/base.py:ScmDataFrameBase.filter", "openscm/scmdataframe/base.py:ScmDataFrameBase.interpolate", "openscm/scmdataframe/base.py:ScmDataFrameBase.convert_unit", "openscm/scmdataframe/base.py:ScmDataFrameBase.relative_to_ref_period_mean"]}
{"id": "C94", "title": "Small and local changes of a timeseries stay small and local", "statement": "If the values of a timeseries change by at most e, the values it is converted to change by at most e, and larger values give larger results, unless they are extrapolated linearly. The result at a time depends only on the values at both ends of the stretch of the source in which it lies; an average over a period only on the averages of the source periods it has something of and those next to them.", "quantifier": "all source and target times, values, changes and kinds of extrapolation", "why_tests_cant": "Tests convert a few arrays; that errors are not amplified is about all pairs of arrays.", "anchors": ["openscm/core/time.py:TimeseriesConverter"]}
{"id": "C95", "title": "Conversion in steps", "statement": "A timeseries converted first to times that include its own, and from there to others, gives what it gives when it is converted at once, or the same error; a whole frame too. A frame of timeseries of one kind without missing values interpolated to finer times and back is exactly what it was.", "quantifier": "all frames of one kind without missing values, all finer times, all target times and kinds of extrapolation", "why_tests_cant": "Tests convert once; that a step in between changes nothing is about all three lists of times and all values.", "anchors": ["openscm/core/time.py:TimeseriesConverter", "openscm/scmdataframe/base.py:ScmDataFrameBase.interpolate"]}
{"id": "C96", "title": "Left alone, DICE comes to rest", "statement": "If nothing is emitted any more, the carbon pools of DICE never leave the range of their sizes relative to equilibrium, and approach the equilibrium shares of the carbon there is by a constant factor in every step. If the forcing stays below (above) the one that balances some warming, both temperatures approach this warming from above (below) by a constant factor in every two steps and do not cross it again.", "quantifier": "all programs, inputs with which no pool or layer gives away more than it has (the defaults among them), all emissions before, any number of steps", "why_tests_cant": "Tests compare a run with stored numbers; the statement is about the limit of all runs.", "anchors": ["openscm/adapters/dice.py:DICE._calc_step", "openscm/adapters/dice.py:DICE._reset"]}
{"id": "C97", "title": "A frame and the parameter set made of it say the same about other times", "statement": "A view of a parameter set made by to_parameterset shows a timeseries of the frame exactly if it is asked for with the type of the timeseries and a compatible unit; it shows the values converted to its unit and time points. Where interpolate succeeds for the frame, views on the new times show the values of the interpolated frame.", "quantifier": "all frames of numbers with at least two times and one timeseries per variable and region that to_parameterset accepts, all time points, units and extrapolation options", "why_tests_cant": "Relates two long ways through the package (frame, converter; frame, hierarchy, view, converter) for all frames and grids; no test compares them.", "anchors": ["openscm/scmdataframe/base.py:ScmDataFrameBase.to_parameterset", "openscm/scmdataframe/base.py:ScmDataFrameBase.interpolate", "openscm/core/parameterset.py:ParameterSet.timeseries"]}
{"id": "C98", "title": "Converting a parameter set back on other times is interpolating the frame", "statement": "If a frame is made into a parameter set and this is converted back on other times, the result holds exactly the timeseries of regions at most one level below the root, with what views of the parameter set on these times show, and the conversion succeeds exactly if there are such timeseries and each of them can be seen on these times. Where the frame can be interpolated to these times without extrapolation, and has no deeper regions, the result holds exactly the timeseries of the interpolated frame.", "quantifier": "all frames of numbers with at least two times and one timeseries per variable and region that to_parameterset accepts, all increasing target times", "why_tests_cant": "Relates whole round trips to interpolation for all frames and grids; the tests convert back on the same times only.", "anchors": ["openscm/scmdataframe/base.py:ScmDataFrameBase.to_parameterset", "openscm/scmdataframe/base.py:ScmDataFrameBase.interpolate", "openscm/scmdataframe/__init__.py:convert_openscm_to_scmdataframe"]}
{"id": "C99", "title": "Frames made of any parameter set hold exactly its timeseries and values", "statement": "After any calls of a parameter set, if it is converted to a frame on given times then the rows of the frame are exactly its timeseries parameters without children in the root region and the regions directly below, each once, with the unit and type that info reports and the values that a view on these times shows, and the other columns are exactly the scalars and generic values of the region World, and model, scenario and climate model, as given only if the parameter set has no such value. The conversion succeeds exactly if there are two times, a timeseries, and nothing in these regions that cannot be read. It leaves the parameter set as it was.", "quantifier": "all parameter sets after any calls, all times, models, scenarios and climate models", "why_tests_cant": "Ranges over all histories of calls of a parameter set, including trees, units and values that no frame could give; the tests convert a few parameter sets.", "anchors": ["openscm/scmdataframe/__init__.py:convert_openscm_to_scmdataframe"]}
{"id": "C100", "title": "DICE takes the emissions of the frame its parameter set was made of", "statement": "If a frame is made into a parameter set and this is handed to DICE, then, whatever the user and the model do with it as long as nobody assigns emissions, the model reads of emissions exactly what a view of the parameter set shows of the row of the frame. A run takes the values of the row as the frame itself interpolates them to the periods of the model, converted to its unit, and the carbon in the three pools together changes by what these values emit.", "quantifier": "all frames and emissions, all uses of the parameter set and the model in between, all inputs, times and step sizes, all numbers of steps", "why_tests_cant": "Connects two components over all sequences of calls between loading a frame and running a model; no test runs a model on a frame.", "anchors": ["openscm/adapters/dice.py:DICE._run", "openscm/adapters/dice.py:DICE._initialize_run_parameters", "openscm/scmdataframe/base.py:ScmDataFrameBase.to_parameterset", "openscm/scmdataframe/base.py:ScmDataFrameBase.interpolate"]}
{"id": "C101", "title": "The outputs of DICE can be made into a frame", "statement": "A model that was handed an empty parameter set for its outputs puts nothing there but its outputs, whatever it is asked to do. After any number of steps this parameter set can be converted to a frame on the times at which the steps begin. The frame has exactly one row for each of the six outputs and no others, in the region World, with the unit and the type of the output, and the values of a row are what somebody who reads the output is shown. It has the columns of timeseries and those for the names that were given, and no others. From frame to frame: what the rows of the three pools of carbon gain together is what the emissions of the frame that was given bring.", "quantifier": "all inputs, times and step sizes, all calls of the model before and all numbers of steps, all names", "why_tests_cant": "Needs what the model requests and never requests in all sequences of calls, and the conversion of the result; no test converts the outputs of a model to a frame.", "anchors": ["openscm/adapters/dice.py:DICE._initialize_run_parameters", "openscm/adapters/dice.py:DICE._run", "openscm/scmdataframe/__init__.py:convert_openscm_to_scmdataframe"]}
{"id": "C102", "title": "Means may be taken before or after interpolation", "statement": "If all values are there, timeseries over which a mean is taken are of the same type and a type is written in one way only, then means of the interpolated frame and means of the frame have rows for the same metadata, and the values of the first are those of the second, interpolated to the new times with the type of the timeseries. The type of the rows that are left is the one that was used. Medians of interpolated timeseries need not be interpolated medians.", "quantifier": "all frames without missing values on increasing times, all columns to take means over, all increasing target times, all types of extrapolation", "why_tests_cant": "Needs that interpolation of any number of arrays is linear and that interpolation, which rewrites the column of types, neither splits nor joins groups; tests take statistics of one frame that was never interpolated.", "anchors": ["openscm/scmdataframe/base.py:ScmDataFrameBase.process_over", "openscm/scmdataframe/base.py:ScmDataFrameBase.interpolate"]}
{"id": "C103", "title": "Frames may be appended before or after interpolation", "statement": "Frames on the same times without missing values have, appended and interpolated, the same values for the same metadata as interpolated and appended, including the means that are taken where metadata coincides. This holds if all frames say of what type their timeseries are, each type in one way, or none does. A frame that leaves the type open (so that it is guessed) and is appended to one that does not loses all its values when the result is interpolated.", "quantifier": "all lists of frames on the same increasing times without missing values, all increasing target times, all types of extrapolation, all metadata, times and values", "why_tests_cant": "Needs linearity of interpolation for the rows that are averaged and the way of types through both functions; tests interpolate and append separately and never append frames with and without a column of types.", "anchors": ["openscm/scmdataframe/base.py:df_append", "openscm/scmdataframe/base.py:ScmDataFrameBase.interpolate"]}
{"id": "C104", "title": "The scenarios that come with the package can be loaded and used", "statement": "Importing the scenarios gives one frame with the beginnings of the years 1765 to 2500 as times. For each of the four scenarios and each of the 39 variables it has exactly one timeseries, with the model, scenario, variable and unit of its file, for the world, as averages, with the values of the file and no other metadata; it has no other timeseries. Every unit is a mass of a gas per year, and this gas is a unit that can be converted. (The oxides of sulfur are in a unit that nothing defines and so cannot be converted.)", "quantifier": "all values in the files, all places of the files, all readers of dates that read the dates in the header as what they say", "why_tests_cant": "Tests import the scenarios and look at a few numbers; that no value is averaged, lost or given to another series needs the whole chain of reading, sorting and appending, for all values.", "anchors": ["openscm/scenarios/__init__.py:rcps", "openscm/scmdataframe/base.py:df_append", "openscm/scmdataframe/base.py:_read_file", "openscm/core/units.py:ScmUnitRegistry"]}
{"id": "C105", "title": "Which frames can become parameter sets", "statement": "If a frame can be made into a parameter set, then no variable is below another one in the same region, every timeseries has a variable, a region that is World or below it and a unit that is defined, its parameter type (if there is such a column) is known, all other metadata is the same for all timeseries, and no metadata has the name of a variable of the world or a name above or below it. In particular a frame with a total and one of its parts is refused, whatever their order. (A frame with two timeseries for one variable and region should be refused too, but the later one replaces the earlier one.)", "quantifier": "all frames with sorted times, numbers and at most one timeseries for each variable and region; all registries of units", "why_tests_cant": "Tests load frames that work; that no frame with clashing names is loaded in part depends on the order of the rows and on every level of the hierarchy.", "anchors": ["openscm/scmdataframe/base.py:to_parameterset", "openscm/core/parameters.py:get_or_create_child_parameter", "openscm/core/parameters.py:attempt_write", "openscm/core/parameterset.py:timeseries"]}
{"id": "C106", "title": "Frames of which the names do not clash can be made into parameter sets and back", "statement": "A frame can be made into a parameter set exactly if it has timeseries and at least three times, variables, regions (in World), units and parameter types are known, no variable is below another one in the same region, all other metadata is shared, it is not the output of a model, and names of metadata clash neither with variables of the world nor with each other. If also no region is more than one level below World, then the parameter set can be made into a frame again, which has exactly the timeseries of the first one.", "quantifier": "all frames with model and scenario, sorted times, numbers, at most one timeseries for each variable and region, and names of metadata without parentheses; all registries of units", "why_tests_cant": "Tests load single frames; that nothing else can go wrong, in whatever order the timeseries come and whatever was created before, needs all states on the way.", "anchors": ["openscm/scmdataframe/base.py:to_parameterset", "openscm/scmdataframe/__init__.py:convert_openscm_to_scmdataframe", "openscm/core/parameterset.py:timeseries", "openscm/core/parameterset.py:generic", "openscm/core/parameters.py:get_or_create_child_parameter"]}
{"id": "C107", "title": "Frames with numbers among their metadata can be made into parameter sets and back", "statement": "Columns of metadata called 'name (unit)' become scalars of the world. A frame with such columns can be made into a parameter set exactly if it meets the conditions for frames without them, the units of the scalars are known, their values are numbers, and the names before the brackets clash neither with variables of the world nor with names of other metadata. If also no region is more than one level below World, then the parameter set can be made into a frame again, with exactly the timeseries of the first one and all of its metadata, scalars in the same unit and as floats.", "quantifier": "all frames with model and scenario, sorted times, numbers, at most one timeseries for each variable and region, and columns of metadata without brackets or of the form 'name (unit)' with one column for each name; all registries of units", "why_tests_cant": "Tests load single frames; here all combinations of scalars, other metadata and timeseries are covered, with all names and units.", "anchors": ["openscm/scmdataframe/base.py:to_parameterset", "openscm/scmdataframe/__init__.py:convert_openscm_to_scmdataframe", "openscm/core/parameterset.py:scalar", "openscm/core/parameterset.py:generic", "openscm/core/parameters.py:attempt_read"]}
{"id": "C108", "title": "The order of timeseries and columns makes no difference to parameter sets", "statement": "Two frames with the same times, columns and timeseries in whatever order can either both be made into parameter sets, or both cannot. If they can and no region is more than one level below World, then the frames made from the parameter sets have the same times and the same timeseries.", "quantifier": "all pairs of such frames with model and scenario, sorted times, numbers, at most one timeseries for each variable and region, columns of metadata without brackets or of the form 'name (unit)' with one column for each name, and no scalar that is None; all registries of units", "why_tests_cant": "The timeseries are added one by one, and each one can make others impossible; tests cannot go through all orders of all frames.", "anchors": ["openscm/scmdataframe/base.py:to_parameterset", "openscm/scmdataframe/__init__.py:convert_openscm_to_scmdataframe", "openscm/core/parameters.py:get_or_create_child_parameter", "openscm/core/parameters.py:attempt_read"]}
{"id": "C109", "title": "Selections of frames in parameter sets can be put into parameter sets", "statement": "If a frame can be made into a parameter set, then so can everything that is selected from it (or left over) by metadata, unless nothing is left. If also no region is more than one level below World, then the frame made from that parameter set has exactly the timeseries of the first frame that were asked for, with the same times, units and values.", "quantifier": "all frames with model and scenario, sorted times, numbers, at most one timeseries for each variable and region, columns of metadata without brackets or of the form 'name (unit)' with one column for each name, and no scalar that is None; all filters by metadata (but the parameter type) or level; all registries of units", "why_tests_cant": "Filters, frames and the states of parameter sets on the way are unbounded; a test selects with one filter from one frame.", "anchors": ["openscm/scmdataframe/base.py:filter", "openscm/scmdataframe/base.py:to_parameterset", "openscm/scmdataframe/__init__.py:convert_openscm_to_scmdataframe", "openscm/core/parameters.py:get_or_create_child_parameter"]}
{"id": "C110", "title": "Converting a frame to other units makes no difference to the parameter set made of it", "statement": "If a frame can be made into a parameter set, then so can the frame with all or some of its timeseries converted to another unit without context, and views of any timeseries, in any unit and with any options, show the same in both parameter sets (or nothing in both). If the converted frame can be made into a parameter set, so could the frame before. If only some timeseries are converted with a context, the frame is refused, and the parameter set stays as it is.", "quantifier": "all frames with the required columns and no unit_context, sorted times, numbers, at most one timeseries for each variable and region, columns of metadata without brackets, units that are not empty, and no variable or column unit_context or below it; all filters by metadata (but unit, context and parameter type); all registries of units; all units, time points and options of views", "why_tests_cant": "Registries, frames, filters and views are unbounded, and the views are of states that are made by different calls; a test compares one view of one frame.", "anchors": ["openscm/scmdataframe/base.py:convert_unit", "openscm/scmdataframe/base.py:to_parameterset", "openscm/core/views.py:TimeseriesView.values", "openscm/core/units.py:UnitConverter"]}
{"id": "C111", "title": "Views of one timeseries of a frame do not depend on the others", "statement": "If two frames with the same times can be made into parameter sets, then views of a timeseries that both frames have (same variable, region, unit, type and values) show the same in both parameter sets, in any unit and with any options: the other timeseries, their order and all other metadata make no difference. In particular, views after a selection show what views of the whole frame show.", "quantifier": "all pairs of frames with sorted times, numbers and at most one timeseries for each variable and region, both with or both without a column for the type; all registries of units; all units, time points and options of views", "why_tests_cant": "It is a statement about pairs of frames with arbitrary other contents, which cannot be listed; a test looks at a few frames at a time.", "anchors": ["openscm/scmdataframe/base.py:to_parameterset", "openscm/core/parameters.py:get_or_create_child_parameter", "openscm/core/views.py:TimeseriesView.values"]}
{"id": "C112", "title": "Renaming shared metadata makes no difference to the parameter set made of a frame", "statement": "If a frame can be made into a parameter set, and values of metadata other than variable, region, unit, type and climate model are renamed, then the renamed frame can be made into a parameter set as well, and views of all timeseries, in any unit and with any options, show the same in both parameter sets. If variables or regions are renamed and both frames can be made into parameter sets, views by the new names show what views by the old names show.", "quantifier": "all frames with model and scenario, sorted times, numbers, at most one timeseries for each variable and region, and columns of metadata without brackets (for variables and regions: with types, also with brackets); all dictionaries of names that rename takes, also those that swap names; all registries of units; all units, time points and options of views", "why_tests_cant": "Dictionaries of names and frames are unbounded, and values that were shared must stay shared for all of them; a test renames one model.", "anchors": ["openscm/scmdataframe/base.py:rename", "openscm/scmdataframe/base.py:to_parameterset", "openscm/core/views.py:TimeseriesView.values"]}
{"id": "C113", "title": "DICE takes the same emissions of frames that say the same", "statement": "If DICE is given the parameter set made of a frame, then the emissions it reads depend only on the timeseries of CO2 emissions of the frame: with another frame that has the same timeseries, whatever else it has, or with the frame converted to other units without context, it reads the same emissions for any time points, whatever was done with the models before, as long as nobody assigned emissions.", "quantifier": "all pairs of frames as in C111, all frames and conversions as in C110; all calls on the two models; all registries of units", "why_tests_cant": "It compares two models after arbitrary, different histories of calls, given arbitrary frames; a test compares two runs.", "anchors": ["openscm/adapters/dice.py:DICE", "openscm/scmdataframe/base.py:to_parameterset", "openscm/scmdataframe/base.py:convert_unit"]}
{"id": "C114", "title": "DICE takes the scalars of the frame it was given", "statement": "If DICE is given the parameter set made of a frame with a column such as `DICE|mat0 (MtC)`, then whatever was done with the model before, as long as nobody assigned that parameter, whoever asks for it is shown the value of the column, converted to the unit asked for. A run takes this value in the unit of the model and not its default: pools and temperatures start from the values of the frame, and from the first step on they respect the bounds of the frame.", "quantifier": "all tidy frames, scalar columns with numbers, registries of units, maps of generic values, calls on the model and its parameter set; all runs", "why_tests_cant": "It holds after arbitrary histories of calls and for every scalar of the model, every unit and value; a test sets a few parameters before one run.", "anchors": ["openscm/adapters/dice.py:DICE._initialize_model", "openscm/scmdataframe/base.py:to_parameterset", "openscm/core/parameterset.py:ParameterSet.scalar"]}
{"id": "C115", "title": "DICE shows the same outputs for frames that say the same of the emissions", "statement": "If two models are given parameter sets made of two frames that have the same timeseries of CO2 emissions, whatever else the frames have, or of a frame and of the same frame converted to other units without context, and the other inputs of their runs are the same, then every output shows the same number at every time point both have reached, whatever was done with the models before, as long as nobody assigned emissions.", "quantifier": "all pairs of frames as in C111, all frames and conversions as in C110; all calls on the two models before the runs; all runs, also of different numbers of steps; all outputs and time points", "why_tests_cant": "It compares runs of two models after arbitrary, different histories of calls, given arbitrary frames and units; a test compares two runs within a tolerance.", "anchors": ["openscm/adapters/dice.py:DICE._run", "openscm/adapters/dice.py:DICE._calc_step", "openscm/scmdataframe/base.py:to_parameterset", "openscm/scmdataframe/base.py:convert_unit"]}
