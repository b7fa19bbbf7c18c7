{"id": "C01", "title": "Exposure is the sum of the open positions", "statement": "In the simulation data returned by getTiSimulation, the `exposure` of every executed day equals the sum, over the positions open at the end of that day, of the exposure each took when opened: the stock price for a long, short_exposure_factor times the stock price for a short. Nothing leaks in or out over the history.", "quantifier": "every sequence of close prices and signals, every max_exposure, every short_exposure_factor, every day (finite prices; factor a finite number >= 1)", "why_tests_cant": "exposure is an accumulated quantity: a leak needs a particular interleaving of opens and closes, and tests only replay one price file", "anchors": ["tti/utils/trading_simulation.py:TradingSimulation.runSimulationRound", "tti/utils/trading_simulation.py:TradingSimulation._closeOpenPositions", "tti/utils/trading_simulation.py:TradingSimulation._processSignal"]}
{"id": "C02", "title": "Exposure never exceeds max_exposure", "statement": "If max_exposure is given and all prices are finite and not negative, then on every day of the simulation the `exposure` column is at most max_exposure. Without these conditions it can fail: there are histories with a negative price, and with a missing price, after which the limit is exceeded or no longer applied.", "quantifier": "every history of finite non-negative prices and signals, every positive max_exposure, every factor >= 1, every day; witnesses for the two exceptions", "why_tests_cant": "safety limit over unbounded histories; the violating combination of a close and an open in the same round may never occur in sample data", "anchors": ["tti/utils/trading_simulation.py:TradingSimulation._processSignal"]}
{"id": "C03", "title": "Earnings never decrease", "statement": "The `earnings` column is non-decreasing from day to day and never negative; on a day on which at least one position is closed it strictly increases. Only winning positions are closed.", "quantifier": "every history of non-negative prices and signals, every limit and factor (finite prices; factor a finite number >= 1)", "why_tests_cant": "needs the sign of every closed batch over all histories, including mixed long/short batches", "anchors": ["tti/utils/trading_simulation.py:TradingSimulation._closeOpenPositions"]}
{"id": "C04", "title": "Earnings are exactly the realised profits", "statement": "On every day `earnings` equals the sum over all positions closed so far of their realised profit: closing price minus opening price for a long, opening price minus closing price for a short (the exposure factor cancels out).", "quantifier": "every price/signal history, every limit and factor, every day (finite prices; factor a finite number >= 1)", "why_tests_cant": "the code never stores per-position profits, it accumulates batch totals; equality with the per-position definition is an inductive fact", "anchors": ["tti/utils/trading_simulation.py:TradingSimulation._closeOpenPositions"]}
{"id": "C05", "title": "Positions close exactly on the first profitable later day", "statement": "A long opened on day d is open on day e>=d iff no day in (d,e] had a price above the opening price; a short opened on day d is open on day e iff no day in (d,e] had factor*price below factor*opening price. So a position never closes on its own day, closes at most once, is never reopened, and no position that could be closed at a profit today is left open.", "quantifier": "every price/signal history, every position, every later day", "why_tests_cant": "statement about all pairs of days in an unbounded history", "anchors": ["tti/utils/trading_simulation.py:TradingSimulation._closeOpenPositions", "tti/utils/trading_simulation.py:TradingSimulation._processSignal"]}
{"id": "C06", "title": "Balance and portfolio value identities", "statement": "On every executed day after the first, portfolio_value = stock_value * (open longs - open shorts) counted at the end of that day, and balance = earnings + portfolio_value; stock_value is that day's close. On the first day all four money columns are 0.", "quantifier": "every price/signal history, every limit and factor, every day", "why_tests_cant": "identity must hold in every branch (hold, opened, ignored, buy, sell) and in every reachable portfolio", "anchors": ["tti/utils/trading_simulation.py:TradingSimulation._calculatePortfolioValue", "tti/utils/trading_simulation.py:TradingSimulation._processSignal"]}
{"id": "C07", "title": "Open decision is exact", "statement": "After the first day a buy signal opens exactly one long iff max_exposure is None or not (max_exposure < exposure after today's closings + price), a sell signal opens exactly one short iff max_exposure is None or not (max_exposure < exposure after today's closings + factor*price), and a hold opens nothing; the open_trading_action column records precisely that.", "quantifier": "every price/signal history, every limit (including NaN and infinity) and factor, every day", "why_tests_cant": "boundary decision in every reachable state; law-free, so it also covers any floating point arithmetic", "anchors": ["tti/utils/trading_simulation.py:TradingSimulation._processSignal"]}
{"id": "C08", "title": "The first day never trades", "statement": "On the first day of the simulation no position is opened or closed and all money columns are zero, whatever the signal; a first-day buy/sell is counted as a signal and as an ignored signal. Consequently without a max_exposure the number of ignored signals is exactly 1 if the first signal is not hold and 0 otherwise (the documentation says ignored signals are only those dropped because of max_exposure, so that reading is refuted).", "quantifier": "every price/signal history", "why_tests_cant": "counter identities over all histories; the discrepancy with the documentation is invisible when the first signals are hold", "anchors": ["tti/utils/trading_simulation.py:TradingSimulation.runSimulationRound", "tti/utils/trading_simulation.py:TradingSimulation._calculateSimulationStatistics"]}
{"id": "C09", "title": "Statistics agree with the simulation data", "statement": "number_of_trading_days is the number of executed rounds; buy + sell + hold signals add up to it; number_of_ignored_* counts exactly the signals without an opened position; buys minus ignored buys is the number of longs ever opened (same for shorts); last_open_*_positions counts positions still open at the end; last_stock_value, last_exposure, last_portfolio_value, last_earnings, final_balance are the last executed row rounded to 2 decimals (0 if there is none).", "quantifier": "every history, every limit and factor, every number of rounds", "why_tests_cant": "cross-checks between separately maintained structures (data frame, portfolio array, statistics) over unbounded histories", "anchors": ["tti/utils/trading_simulation.py:TradingSimulation._calculateSimulationStatistics", "tti/utils/trading_simulation.py:TradingSimulation.closeSimulation"]}
{"id": "C10", "title": "Simulation has no look-ahead", "statement": "Rows 0..d of the simulation data depend only on the closes and signals of days 0..d: two runs that agree up to day d have identical rows up to day d, whatever follows, and however long the two periods are.", "quantifier": "every pair of histories with a common prefix", "why_tests_cant": "relational property over pairs of inputs of unbounded length", "anchors": ["tti/utils/trading_simulation.py:TradingSimulation.runSimulationRound"]}
{"id": "C11", "title": "Scale invariance of the simulation", "statement": "Multiplying every price and max_exposure by the same c>0 multiplies every money column by c and leaves every action and every counter unchanged.", "quantifier": "every history, every c>0, every limit and factor (finite prices; factor a finite number >= 1)", "why_tests_cant": "relational property over pairs of runs", "anchors": ["tti/utils/trading_simulation.py:TradingSimulation"]}
{"id": "C12", "title": "An unreached limit is no limit", "statement": "If the exposure of the unlimited run never exceeds M on any day, then the run with max_exposure=M produces exactly the same simulation data.", "quantifier": "every history, every M, every factor", "why_tests_cant": "relational property between two runs over all histories", "anchors": ["tti/utils/trading_simulation.py:TradingSimulation._processSignal"]}
{"id": "C13", "title": "Number of open positions is bounded by the limit", "statement": "With max_exposure = M and every price at least m>0, at most M/m positions are open on any day.", "quantifier": "every history with prices bounded below, every M", "why_tests_cant": "bound on a reachable-state quantity over all histories", "anchors": ["tti/utils/trading_simulation.py:TradingSimulation"]}
{"id": "C14", "title": "What the balance means", "statement": "balance = earnings + unrealised profit + (sum of opening prices of the open longs) - (sum of opening prices of the open shorts); in particular balance equals total profit exactly when no position is open, and with only longs open it overstates total profit by the whole purchase cost.", "quantifier": "every history, every day (finite prices; factor a finite number >= 1)", "why_tests_cant": "identity over all reachable portfolios", "anchors": ["tti/utils/trading_simulation.py:TradingSimulation._calculatePortfolioValue"]}
{"id": "C15", "title": "Simulation argument validation", "statement": "TradingSimulation/getTiSimulation accepts max_exposure iff it is None or an int/float (bool included) that is not <= 0 (so NaN is accepted and then behaves as no limit), and short_exposure_factor iff it is an int/float not < 1.0 (NaN accepted); any other type raises WrongTypeForInputParameter, any other value WrongValueForInputParameter, and invalid or misindexed close_values raise NotValidInputDataForSimulation before either is looked at.", "quantifier": "every Python argument value (int, float incl. NaN/inf, bool, str, None, other), every close_values object", "why_tests_cant": "decision table with precedence over all argument combinations", "anchors": ["tti/utils/trading_simulation.py:TradingSimulation._validateSimulationArguments"]}
{"id": "C16", "title": "Simulation result is total and complete", "statement": "Once the arguments are accepted, running the simulation for n rounds with any signals never fails; exactly the first n rows are filled and every filled row has a signal in {buy, hold, sell}, an action in {long, short, none} and an action that matches its signal.", "quantifier": "every history, every number of rounds", "why_tests_cant": "totality over all inputs", "anchors": ["tti/utils/trading_simulation.py:TradingSimulation"]}
{"id": "C17", "title": "Observers do not disturb the indicator", "statement": "Any sequence of getTiData, getTiValue, getTiSignal and successful getTiSimulation calls leaves the indicator unchanged: every later call returns exactly what it would have returned on the freshly constructed object.", "quantifier": "every indicator, every input, every finite sequence of API calls", "why_tests_cant": "property of all call histories; getTiSimulation temporarily truncates the object's own data", "anchors": ["tti/indicators/_technical_indicator.py:TechnicalIndicator.getTiSimulation", "tti/indicators/_technical_indicator.py:TechnicalIndicator.getTiData", "tti/indicators/_technical_indicator.py:TechnicalIndicator.getTiValue"]}
{"id": "C18", "title": "Rejected simulation arguments leave the indicator unchanged", "statement": "If getTiSimulation rejects its arguments (invalid close_values, max_exposure or short_exposure_factor) the indicator is unchanged.", "quantifier": "every indicator, every bad argument, every call history before and after", "why_tests_cant": "history property on error paths", "anchors": ["tti/indicators/_technical_indicator.py:TechnicalIndicator.getTiSimulation", "tti/utils/trading_simulation.py:TradingSimulation._validateSimulationArguments"]}
{"id": "C19", "title": "A signal failure during simulation leaves the indicator truncated", "statement": "If getTiSignal raises during round i of getTiSimulation, the indicator is left holding only rows up to i. Two real cases: MedianPrice(period=1) always fails in round 0 (its signal needs two rows), and RangeIndicator fails when ri crosses above 70 without an earlier ri below 20. So the desired 'getTiSimulation never damages the object' holds exactly for indicators whose signal is total on all prefixes.", "quantifier": "every indicator, every input; concrete witnesses for the two failing cases", "why_tests_cant": "exception safety over all crash points of the loop", "anchors": ["tti/indicators/_technical_indicator.py:TechnicalIndicator.getTiSimulation", "tti/indicators/_median_price.py:MedianPrice.getTiSignal", "tti/indicators/_range_indicator.py:RangeIndicator.getTiSignal"]}
{"id": "C20", "title": "Simulation signals are the live signals", "statement": "For every causal indicator built on complete data (or on data whose earliest values are known, with missing values filled), the signal recorded by getTiSimulation for day i equals the getTiSignal of the same indicator constructed on only the rows dated up to day i, whenever these are enough to construct it; and its values are the values of the full indicator up to that day. So the backtest has no look-ahead bias and values are never revised.", "quantifier": "every causal indicator, all its parameters, every input (dates in any order, possibly repeated), every day", "why_tests_cant": "relational property across two constructions for unbounded inputs; a single off-by-one shift would break it", "anchors": ["tti/indicators/_technical_indicator.py:TechnicalIndicator.getTiSimulation", "tti/indicators/*.py:_calculateTi"]}
{"id": "C21", "title": "Look-ahead indicators", "statement": "DetrendedPriceOscillator, FibonacciRetracement and AccumulationDistributionLine/ChaikinOscillator are not causal: there are pairs of inputs that agree up to a day but on which the value of that day differs (centred average; whole-period max/min; integer truncation that is skipped when any value of the series is not finite), and (for the first three) complete inputs on which the simulated signal of a day differs from the signal a live user gets on that day.", "quantifier": "existential: concrete pairs of inputs with a common prefix", "why_tests_cant": "the tests compare against one golden file computed on the full period, which hides the dependence on later rows", "anchors": ["tti/indicators/_detrended_price_oscillator.py:DetrendedPriceOscillator._calculateTi", "tti/indicators/_fibonacci_retracement.py:FibonacciRetracement._calculateTi", "tti/indicators/_accumulation_distribution_line.py:AccumulationDistributionLine._calculateTi"]}
{"id": "C22", "title": "getTiValue agrees with getTiData", "statement": "getTiValue() is the last row of getTiData() (None if there are no rows); getTiValue(date) is the row of getTiData() with that date, and None exactly when the date cannot be parsed or is not in the index.", "quantifier": "every indicator, every input with distinct dates, every date argument", "why_tests_cant": "ranges over all dates and inputs", "anchors": ["tti/indicators/_technical_indicator.py:TechnicalIndicator.getTiValue"]}
{"id": "C23", "title": "Number of simulation rounds and index", "statement": "The simulation data has one row per input row, in date order; exactly as many rounds are executed as getTiData has rows, the remaining rows (DetrendedPriceOscillator only) stay empty.", "quantifier": "every indicator, every input", "why_tests_cant": "ranges over all indicators and inputs", "anchors": ["tti/indicators/_technical_indicator.py:TechnicalIndicator.getTiSimulation"]}
{"id": "C24", "title": "Validated data is the input in date order", "statement": "Validation returns the rows of the input sorted by ascending date, each row keeping its own values: nothing lost, nothing duplicated.", "quantifier": "every valid data frame", "why_tests_cant": "permutation property for all inputs", "anchors": ["tti/utils/data_validation.py:validateInputData"]}
{"id": "C25", "title": "Row order of the input is irrelevant", "statement": "Permuting the rows of an input with distinct dates changes nothing: the constructed indicator, its data and its signal are identical.", "quantifier": "every indicator, every input with distinct dates, every permutation of its rows", "why_tests_cant": "quantifies over all permutations", "anchors": ["tti/utils/data_validation.py:validateInputData", "tti/indicators/_technical_indicator.py:TechnicalIndicator"]}
{"id": "C26", "title": "Column names are case insensitive and extra columns are ignored", "statement": "Changing the letter case of the column names or adding columns that are not required does not change the validated data, provided names stay distinct after lower-casing.", "quantifier": "every valid data frame, every renaming by case, every set of extra columns", "why_tests_cant": "quantifies over all inputs", "anchors": ["tti/utils/data_validation.py:validateInputData"]}
{"id": "C27", "title": "Missing value filling", "statement": "With fill_missing_values=True every missing value is replaced by the most recent earlier known value of its column, or if there is none by the first later known value; known values are never altered; afterwards a column has a missing value only if it had no known value at all.", "quantifier": "every column of every input", "why_tests_cant": "must hold for every pattern of missing values", "anchors": ["tti/utils/data_preprocessing.py:fillMissingValues", "tti/utils/data_validation.py:validateInputData"]}
{"id": "C28", "title": "Validation is idempotent", "statement": "Validating already validated data returns it unchanged; so an indicator used inside another indicator sees the same data as the outer one (when filling is on).", "quantifier": "every valid data frame", "why_tests_cant": "algebraic law over all inputs", "anchors": ["tti/utils/data_validation.py:validateInputData", "tti/utils/data_preprocessing.py:fillMissingValues"]}
{"id": "C29", "title": "Look-back filling is causal except for leading gaps", "statement": "Filling then truncating equals truncating then filling whenever the truncated part has a known first value in every column; a leading gap is filled from the future, and a witness shows the difference.", "quantifier": "every input, every truncation point", "why_tests_cant": "relational property", "anchors": ["tti/utils/data_preprocessing.py:fillMissingValues"]}
{"id": "C30", "title": "Validation error precedence and acceptance", "statement": "Validation succeeds iff the argument is a non-empty DataFrame with a DatetimeIndex with string column labels, which after lower-casing contain every required column exactly once with numeric type and no other label twice; otherwise the first failing check decides the exception: type of the argument, type of the index, emptiness, non-string label, then for each required column in the documented order missing / repeated / non-numeric, then a repeated extra label.", "quantifier": "every argument object", "why_tests_cant": "full decision table", "anchors": ["tti/utils/data_validation.py:validateInputData"]}
{"id": "C31", "title": "Validation changes only the column names of the caller's frame", "statement": "The only effect on the caller's DataFrame is that its column names are lower-cased, and that happens exactly when the argument is a non-empty DataFrame with a DatetimeIndex and string labels, even if validation then fails.", "quantifier": "every argument object", "why_tests_cant": "effect on a shared mutable object along success and error paths", "anchors": ["tti/utils/data_validation.py:validateInputData"]}
{"id": "C32", "title": "NotEnoughInputData exactly below the minimum", "statement": "For every indicator and accepted parameters, construction on valid data fails with NotEnoughInputData iff the number of rows is below the documented minimum for those parameters, and otherwise succeeds; the exception reports the number of rows found, and the required number except for AverageTrueRange, which reports 2 although 14 are needed.", "quantifier": "every indicator, every accepted parameter value, every input length", "why_tests_cant": "threshold for all parameter values, including sub-indicators that have their own thresholds", "anchors": ["tti/indicators/*.py:_calculateTi", "tti/utils/exceptions.py:NotEnoughInputData"]}
{"id": "C33", "title": "Shape of the indicator data", "statement": "getTiData has the documented columns and its dates are exactly the dates of the input (for DetrendedPriceOscillator all but the last 1+period//2).", "quantifier": "every indicator, every accepted parameter value, every valid input", "why_tests_cant": "all 57 indicators and all lengths", "anchors": ["tti/indicators/*.py:_calculateTi"]}
{"id": "C34", "title": "Signals are total", "statement": "getTiSignal returns buy, hold or sell without raising on every successfully constructed indicator, and on every truncation of it used by the simulation, except MedianPrice(period=1) on one row and RangeIndicator as described in C19.", "quantifier": "every indicator, every accepted parameter value, every input, every prefix", "why_tests_cant": "partial positional accesses such as .iat[-4] on all lengths", "anchors": ["tti/indicators/*.py:getTiSignal"]}
{"id": "C35", "title": "Parameter validation", "statement": "For each indicator parameter: a value is accepted iff its type and range are as documented (bool counts as int), a wrong type raises WrongTypeForInputParameter and a wrong value WrongValueForInputParameter; parameters are checked before the data.", "quantifier": "every indicator, every Python argument value", "why_tests_cant": "decision table over all argument values", "anchors": ["tti/indicators/*.py:__init__"]}
{"id": "C36", "title": "Indicators that never sell", "statement": "MovingAverage, NegativeVolumeIndex, TypicalPrice, DoubleExponentialMovingAverage and UltimateOscillator never return sell, so a simulation driven by them never opens a short.", "quantifier": "every input, every parameter, every prefix", "why_tests_cant": "absence of an outcome over all inputs", "anchors": ["tti/indicators/_ultimate_oscillator.py:UltimateOscillator.getTiSignal", "tti/indicators/_moving_average.py:MovingAverage.getTiSignal"]}
{"id": "C37", "title": "Ultimate Oscillator signal ignores its documented thresholds", "statement": "The documented conditions (oscillator below 30 during the divergence, then a new high) are not what is checked: there are data with the oscillator above 30 throughout the window and no new high for which the signal is buy.", "quantifier": "existential witness plus the exact characterisation for all inputs", "why_tests_cant": "the golden test only checks that a signal is one of three values", "anchors": ["tti/indicators/_ultimate_oscillator.py:UltimateOscillator.getTiSignal"]}
{"id": "C38", "title": "Ichimoku before the cloud exists", "statement": "During the first 26 rows the cloud is undefined, yet the position test treats every value as above the cloud, so a buy (never a sell) can be emitted there.", "quantifier": "every input with at most 26 rows; concrete witness", "why_tests_cant": "depends on ordering of NaN in list.sort", "anchors": ["tti/indicators/_ichimoku_cloud.py:IchimokuCloud._whereInCloud", "tti/indicators/_ichimoku_cloud.py:IchimokuCloud.getTiSignal"]}
{"id": "C39", "title": "Oscillators stay in their range", "statement": "On finite data (with low <= close <= high, and low <= open <= high where open is used, volume >= 0) every finite value of these indicators lies in its range: RSI, RMI, IMI, RVI, stochastic %K and %D, Range Indicator, DMI's +DI/-DI, DX, ADX, ADXR, Ultimate Oscillator in [0,100]; CMO, Stochastic Momentum Index, Swing Index in [-100,100]; Williams %R in [-100,0]; Chaikin Money Flow in [-1,1]; Vertical Horizontal Filter in [0,1].", "quantifier": "every finite price series satisfying the bar inequalities, every parameter, every row", "why_tests_cant": "range invariant of recursive filters over all inputs, including the rounding to 4 decimals", "anchors": ["tti/indicators/_relative_strength_index.py:RelativeStrengthIndex._calculateTi", "tti/indicators/_stochastic_oscillator.py:StochasticOscillator._calculateTi", "tti/indicators/_williams_r.py:WilliamsR._calculateTi", "tti/indicators/_directional_movement_index.py:DirectionalMovementIndex._calculateTi"]}
{"id": "C40", "title": "Moving averages stay inside the data", "statement": "Simple, exponential, triangular and variable moving averages and Wilder's smoothing always lie between the smallest and the largest close seen so far (within the rounding to 4 decimals; exactly when the closes are multiples of 0.0001).", "quantifier": "every finite close series, every period, every row", "why_tests_cant": "convexity invariant of recursive filters for all inputs", "anchors": ["tti/indicators/_moving_average.py:MovingAverage._calculateTi", "tti/indicators/_wilders_smoothing.py:WildersSmoothing._calculateTi"]}
{"id": "C41", "title": "Band ordering", "statement": "lower_band <= middle_band <= upper_band for Bollinger Bands; lower_band <= upper_band for Envelopes on non-negative closes, and for Price Channel and Projection Bands on bars with low <= high; the Fibonacci levels are ordered from the period's high close (rl_0.0) down to its low close (rl_100.0). Price Channel (highest_high, lowest_low) excludes the current day.", "quantifier": "every finite series, every parameter, every row", "why_tests_cant": "order invariants after rounding over all inputs", "anchors": ["tti/indicators/_bollinger_bands.py:BollingerBands._calculateTi", "tti/indicators/_envelopes.py:Envelopes._calculateTi", "tti/indicators/_price_channel.py:PriceChannel._calculateTi", "tti/indicators/_fibonacci_retracement.py:FibonacciRetracement._calculateTi", "tti/indicators/_projection_bands.py:ProjectionBands._calculateTi"]}
{"id": "C42", "title": "Linear regression indicators are least squares fits", "statement": "LinearRegressionSlope and LinearRegressionIndicator are, rounded to four decimals, the slope and the end value of the line minimising the squared error over the last `period` closes; on data that lie on a line with coefficients of four decimals they reproduce it exactly, and TimeSeriesForecast gives the next point (on other data within 0.0001).", "quantifier": "every finite close series, every period > 1, every row, every competing line", "why_tests_cant": "optimality against all lines cannot be sampled", "anchors": ["tti/indicators/_linear_regression_slope.py:LinearRegressionSlope._calculateTi", "tti/indicators/_linear_regression_indicator.py:LinearRegressionIndicator._calculateTi", "tti/indicators/_time_series_forecast.py:TimeSeriesForecast._calculateTi"]}
{"id": "C43", "title": "Volume indices in closed form", "statement": "NegativeVolumeIndex (PositiveVolumeIndex) on nonzero closes equals 1000 times the product of close[i]/close[i-1] over the days on which volume fell (rose), rounded to four decimals; it is unchanged on all other days, and on positive closes the product before rounding is positive. OnBalanceVolume equals volume of up days minus volume of down days; PriceAndVolumeTrend equals the sum of volume times relative price change, rounded to four decimals.", "quantifier": "every finite series with nonzero closes, every row", "why_tests_cant": "recursion versus closed form for all lengths", "anchors": ["tti/indicators/_negative_volume_index.py:NegativeVolumeIndex._calculateTi", "tti/indicators/_positive_volume_index.py:PositiveVolumeIndex._calculateTi", "tti/indicators/_on_balance_volume.py:OnBalanceVolume._calculateTi", "tti/indicators/_price_and_volume_trend.py:PriceAndVolumeTrend._calculateTi"]}
{"id": "C44", "title": "True range measures are non-negative", "statement": "AverageTrueRange, StandardDeviation and (for volume > 0) MarketFacilitationIndex are never negative on bars with low <= high.", "quantifier": "every finite series with low <= high, every row", "why_tests_cant": "sign invariant of recursive filters", "anchors": ["tti/indicators/_average_true_range.py:AverageTrueRange._calculateTi", "tti/indicators/_standard_deviation.py:StandardDeviation._calculateTi", "tti/indicators/_market_facilitation_index.py:MarketFacilitationIndex._calculateTi"]}
{"id": "C45", "title": "Ratios and oscillators do not depend on the unit of prices or volumes", "statement": "Multiplying all prices by c>0 leaves the values (to the last decimal) of 27 classes unchanged: ADL, CMF, Chaikin Oscillator, CMO, CCI, DMI, IMI, Klinger, Mass Index, Momentum, NVI, OBV, Performance, PVI, PVT, Price Oscillator, Price ROC, RMI, RVI, SMI, Stochastic Oscillator, Ultimate Oscillator, VHF, Chaikin Volatility, Volume Oscillator, Volume ROC and Williams %R; and, except for VHF, the result of every later API call (signal, simulation with the same close values). Multiplying all volumes by c>0 changes nothing for every class that does not use the volume and for CMF, NVI, PVI and Volume ROC. The same exceptions are raised. RSI is not among these classes because it rounds intermediate results.", "quantifier": "every input frame, every c>0, every accepted parameter, every sequence of API calls", "why_tests_cant": "relational property over pairs of inputs", "anchors": ["tti/indicators/_momentum.py:Momentum._calculateTi", "tti/indicators/_stochastic_oscillator.py:StochasticOscillator._calculateTi"]}
{"id": "C46", "title": "Parabolic SAR invariants", "statement": "The values of ParabolicSAR are the stops of a run of the documented rules over the user's prices: the position starts long exactly if the second high is above the first; the acceleration factor is 0.02 plus 0.02 per new extreme, at most 0.2; while a position continues, the SAR is not above the two previous lows and today's low (long) or not below the two previous highs and today's high (short); a reversal happens exactly when the price penetrates the stop, and the SAR of that day is the extreme of the finished position. The rules leave exactly one such run.", "quantifier": "every finite series with low <= high, every row", "why_tests_cant": "invariant of a recursive state machine over all inputs", "anchors": ["tti/indicators/_parabolic_sar.py:ParabolicSAR._calculateSarRow"]}
{"id": "C47", "title": "Signals follow the last values only through documented crossings", "statement": "For the threshold and crossover indicators the signal is buy/sell exactly when the documented crossing of the last two (three, four) values holds, a missing value in any of them gives hold, and buy and sell are mutually exclusive.", "quantifier": "every pair of indicator values including missing and infinite values", "why_tests_cant": "exact decision logic over all values", "anchors": ["tti/indicators/*.py:getTiSignal"]}
{"id": "C48", "title": "ATR and TypicalPrice signals depend on column order", "statement": "The signal of AverageTrueRange and of TypicalPrice compares with the moving average of whichever required column comes first in the user's frame; there are inputs for which merely reordering the columns changes the signal. All other signals and all indicator values are independent of the column order.", "quantifier": "every input and every column permutation; concrete witnesses for the two exceptions", "why_tests_cant": "relational property over all permutations", "anchors": ["tti/indicators/_average_true_range.py:AverageTrueRange.getTiSignal", "tti/indicators/_typical_price.py:TypicalPrice.getTiSignal"]}
{"id": "C49", "title": "RMI is undefined when there is no down move", "statement": "If no close is below the close momentum_period days earlier, RelativeMomentumIndex is NaN on every row (infinity over infinity), whereas RelativeStrengthIndex (period at least 3) without down moves is 100 from row `period` on, as soon as one rise of at least period * 0.0001 has occurred.", "quantifier": "every such series, every parameter", "why_tests_cant": "division by zero behaviour on a whole class of inputs", "anchors": ["tti/indicators/_relative_momentum_index.py:RelativeMomentumIndex._calculateTi", "tti/indicators/_relative_strength_index.py:RelativeStrengthIndex._calculateTi"]}
{"id": "C50", "title": "Constant close prices", "statement": "When every close is the same number K, every value of the simple, exponential, triangular, time series, double and triple exponential average, Wilder's smoothing, the regression indicator, the forecast and the Bollinger bands is K rounded to 4 decimals; MACD, its signal line, price oscillator, rate of change, standard deviation, regression slope and detrended oscillator are 0 and momentum is 100 (K not 0 where the close is a divisor), each from an exactly known first day on. The variable moving average has one value only. The indicators that compare successive days hold on the whole data and on every day of a simulation, so the simulation never opens a position; the ones that compare the close with a rounded value hold when K has at most 4 decimals, and need not otherwise.", "quantifier": "every constant, every length, every parameter, every day of a simulation", "why_tests_cant": "all lengths and parameters", "anchors": ["tti/indicators/_moving_average_convergence_divergence.py:MovingAverageConvergenceDivergence._calculateTi", "tti/indicators/_price_oscillator.py:PriceOscillator._calculateTi"]}
{"id": "C51", "title": "Parabolic SAR stays inside the prices seen so far", "statement": "On bars with low <= high, every value of ParabolicSAR lies between the lowest low and the highest high of the days up to then (within the rounding to 4 decimals), and none is missing.", "quantifier": "every finite series of bars, every row", "why_tests_cant": "invariant of a recursive state machine over all inputs", "anchors": ["tti/indicators/_parabolic_sar.py:ParabolicSAR._calculateSarRow"]}
{"id": "C52", "title": "Moving averages are the textbook averages", "statement": "On every day of every series of numeric closes the reported value is exactly the textbook value rounded once to four decimals (half to even), missing before the first full window: simple average = mean of the last n closes; exponential = starts with the first close and moves by 2/(n+1); triangular = mean of the last n means; variable = starts on day 22 and moves by 2/(n+1) times |9-day Chande momentum|/100, and is lost for good after nine days without a change; DEMA and TEMA; Wilder's smoothing = mean of the first n, then moves by 1/n.", "quantifier": "every frame of finite numbers, every row order, every period, every day", "why_tests_cant": "the value of a recursive average on all inputs; unit tests compare one recorded data set", "anchors": ["tti/indicators/_moving_average.py:MovingAverage._calculateTi", "tti/indicators/_double_exponential_moving_average.py:DoubleExponentialMovingAverage._calculateTi", "tti/indicators/_triple_exponential_moving_average.py:TripleExponentialMovingAverage._calculateTi", "tti/indicators/_wilders_smoothing.py:WildersSmoothing._calculateTi"]}
{"id": "C53", "title": "Momentum, rate of change, oscillators of averages and MACD have the textbook value", "statement": "On every day: Momentum = 100 * close / close n days ago; price and volume rate of change = percentage change over n days; price oscillator = percentage difference of two means of the close; volume oscillator = difference of two means of the volume; MACD line = 12-day minus 26-day exponential average (each rounded to 4 decimals) with the 9-day exponential average of it as signal line; Performance = relative change against the first close. A division by zero gives NaN for 0/0 and an infinity otherwise.", "quantifier": "every frame of finite numbers, parameter and day", "why_tests_cant": "exact values on all inputs including zero divisors and the first rows", "anchors": ["tti/indicators/_momentum.py:Momentum._calculateTi", "tti/indicators/_price_rate_of_change.py:PriceRateOfChange._calculateTi", "tti/indicators/_volume_rate_of_change.py:VolumeRateOfChange._calculateTi", "tti/indicators/_price_oscillator.py:PriceOscillator._calculateTi", "tti/indicators/_volume_oscillator.py:VolumeOscillator._calculateTi", "tti/indicators/_moving_average_convergence_divergence.py:MovingAverageConvergenceDivergence._calculateTi", "tti/indicators/_performance.py:Performance._calculateTi"]}
{"id": "C54", "title": "Bands and levels have the textbook value", "statement": "On every day: Standard Deviation = root of the population variance of the last n closes; Bollinger bands = mean +- k standard deviations; Envelopes = (1 +- shift) * mean; Price Channel = highest high and lowest low of the n days before (the day itself excluded); Fibonacci levels = between highest and lowest close of the whole chart, the same on every day.", "quantifier": "every frame of finite numbers, parameter and day", "why_tests_cant": "exact values on all inputs, off-by-one of windows", "anchors": ["tti/indicators/_standard_deviation.py:StandardDeviation._calculateTi", "tti/indicators/_bollinger_bands.py:BollingerBands._calculateTi", "tti/indicators/_envelopes.py:Envelopes._calculateTi", "tti/indicators/_price_channel.py:PriceChannel._calculateTi", "tti/indicators/_fibonacci_retracement.py:FibonacciRetracement._calculateTi"]}
{"id": "C55", "title": "Oscillators have the textbook value", "statement": "On every day: Williams %R, Stochastic %K and %D (simple and weighted), Stochastic Momentum Index, Chande Momentum Oscillator, Intraday Momentum Index, Qstick and Vertical Horizontal Filter are exactly their textbook formula over the last n days, rounded to four decimals; a range of height zero gives NaN or an infinity as float division does.", "quantifier": "every frame of finite numbers, parameter and day", "why_tests_cant": "exact values on all inputs, windows, zero ranges", "anchors": ["tti/indicators/_williams_r.py:WilliamsR._calculateTi", "tti/indicators/_stochastic_oscillator.py:StochasticOscillator._calculateTi", "tti/indicators/_stochastic_momentum_index.py:StochasticMomentumIndex._calculateTi", "tti/indicators/_chande_momentum_oscillator.py:ChandeMomentumOscillator._calculateTi", "tti/indicators/_intraday_momentum_index.py:IntradayMomentumIndex._calculateTi", "tti/indicators/_qstick.py:Qstick._calculateTi", "tti/indicators/_vertical_horizontal_filter.py:VerticalHorizontalFilter._calculateTi"]}
{"id": "C56", "title": "Price averages, detrended price and Ichimoku lines have the textbook value", "statement": "On every day: Median Price = (high + low)/2; Weighted Close = (2 close + high + low)/4; Typical Price = (high + low + close)/3; Detrended Price Oscillator on day i = close of day i minus the mean of the n closes that end 1 + n/2 days later, with no row for the last 1 + n/2 days; Ichimoku conversion and base line = middle of the highest high and lowest low of up to 9 and 26 days, leading lines = mean of these two and the middle of the 52-day range, both displaced by 26 days; each rounded to four decimals.", "quantifier": "every frame of finite numbers, parameter and day", "why_tests_cant": "exact values on all inputs, window and displacement off-by-one", "anchors": ["tti/indicators/_median_price.py:MedianPrice._calculateTi", "tti/indicators/_weighted_close.py:WeightedClose._calculateTi", "tti/indicators/_typical_price.py:TypicalPrice._calculateTi", "tti/indicators/_detrended_price_oscillator.py:DetrendedPriceOscillator._calculateTi", "tti/indicators/_ichimoku_cloud.py:IchimokuCloud._calculateTi"]}
{"id": "C57", "title": "Average true range and the directional movement lines follow Wilder's recursion", "statement": "Average True Range is Wilder's 14-day average of the true range (mean of the first 14, then a move of 1/14 towards the day's value). The plus and minus directional lines are 100 times the 14-day running total of the directional moves over that of the true range, from day 14; DX is their absolute difference relative to their sum in percent; ADX is Wilder's 14-day average of DX from day 27, and ADXR the middle of ADX and its value 13 days before. All rounded to four decimals. If the close always lies inside the day's range, DX is missing until the range moves for the first time; a missing DX counts as zero in the mean that starts ADX; and if no range has moved up to day 28, ADX and ADXR are missing for ever.", "quantifier": "every frame of finite numbers and day (DX, ADX and ADXR: closes inside the day's range, or sums they divide by that are not zero)", "why_tests_cant": "a recursion over all days with seeds and skipped rows; off-by-one in the seed shows up only as a small drift", "anchors": ["tti/indicators/_average_true_range.py:AverageTrueRange._calculateTi", "tti/indicators/_directional_movement_index.py:DirectionalMovementIndex._calculateTi"]}
{"id": "C58", "title": "Oscillators built on daily ranges have the textbook value", "statement": "On every day: Ultimate Oscillator = pressure ratios of 7, 14, 28 days weighed 4:2:1; Commodity Channel Index = distance of the typical price from its mean in units of 0.015 mean deviations; Mass Index = 25-day total of the averaged range over its own average; Chaikin's volatility = percentage change of the averaged range; Range Indicator = exponential average of the place of range per rise; Swing Index = Wilder's formula limited to -100..100; rounded to four decimals, with missing values only where the window is not full or a divisor is zero.", "quantifier": "every frame of finite numbers, parameter and day", "why_tests_cant": "exact values on all inputs, windows, zero divisors", "anchors": ["tti/indicators/_ultimate_oscillator.py:UltimateOscillator._calculateTi", "tti/indicators/_commodity_channel_index.py:CommodityChannelIndex._calculateTi", "tti/indicators/_mass_index.py:MassIndex._calculateTi", "tti/indicators/_volatility_chaikins.py:VolatilityChaikins._calculateTi", "tti/indicators/_range_indicator.py:RangeIndicator._calculateTi", "tti/indicators/_swing_index.py:SwingIndex._calculateTi"]}
{"id": "C59", "title": "Volume indicators have the textbook value, and flat or idle days do what float division says", "statement": "On every day: Market Facilitation Index = range / volume to ten decimals; Ease of Movement = move of the middle times range per volume, its average the mean of n of them; Williams' accumulation = close minus true high or true low, per day and not added up; Chaikin Money Flow = total flow over total volume of n days; Accumulation Distribution Line = running total of the flow cut to an integer; Chaikin Oscillator = difference of 3- and 10-day exponential averages of it; Klinger = difference of 34- and 55-day averages of the volume force. A day with high = low empties every Chaikin money flow window that contains it, and makes the whole line keep its decimals; a day without volume has no finite ease of movement and empties every mean that contains it. An exponential average stays on a day without a number, and the next number counts more (a / (a + (1 - a)^d) after d days, and 1 - (1 - a)^d for the 3-day average).", "quantifier": "every frame of finite numbers, parameter and day (flat days in the Chaikin oscillator and the line: closes inside the day's range)", "why_tests_cant": "exact values on all inputs; the effect of a single flat day on all other days", "anchors": ["tti/indicators/_market_facilitation_index.py:MarketFacilitationIndex._calculateTi", "tti/indicators/_ease_of_movement.py:EaseOfMovement._calculateTi", "tti/indicators/_williams_accumulation_distribution.py:WilliamsAccumulationDistribution._calculateTi", "tti/indicators/_chaikin_money_flow.py:ChaikinMoneyFlow._calculateTi", "tti/indicators/_accumulation_distribution_line.py:AccumulationDistributionLine._calculateTi", "tti/indicators/_chaikin_oscillator.py:ChaikinOscillator._calculateTi", "tti/indicators/_klinger_oscillator.py:KlingerOscillator._calculateTi"]}
{"id": "C60", "title": "Relative strength, momentum and volatility follow Wilder's averages", "statement": "RSI = averaged rise in percent of averaged rise plus averaged fall, where changes and every step of the average are rounded to four decimals; RMI = the same over changes of m days with unrounded averages, missing when nothing fell; RVI = mean over high and low of the share of rising days in the averaged 10-day deviation, missing when one of them did not move.", "quantifier": "every frame of finite numbers, parameter and day", "why_tests_cant": "recursions over all days with seeds, and zero divisors", "anchors": ["tti/indicators/_relative_strength_index.py:RelativeStrengthIndex._calculateTi", "tti/indicators/_relative_momentum_index.py:RelativeMomentumIndex._calculateTi", "tti/indicators/_relative_volatility_index.py:RelativeVolatilityIndex._calculateTi"]}
{"id": "C61", "title": "Projection bands, projection oscillator and forecast oscillator use the line that fits best", "statement": "The upper (lower) projection band is the greatest high (least low) of the last n days, each carried to the day along the slope of the one line that fits those highs (lows) best; the projection oscillator is the place of the close between the rounded bands in percent and its trigger line the 3-day exponential average of it, which skips days on which the bands meet; the forecast oscillator is the distance of the close from yesterday's forecast in percent of the close.", "quantifier": "every frame of finite numbers, parameter and day", "why_tests_cant": "optimality over all lines and exact values on all inputs", "anchors": ["tti/indicators/_projection_bands.py:ProjectionBands._calculateTi", "tti/indicators/_projection_oscillator.py:ProjectionOscillator._calculateTi", "tti/indicators/_forecast_oscillator.py:ForecastOscillator._calculateTi"]}
{"id": "C62", "title": "Graphs show the data they claim to show", "statement": "getTiGraph succeeds for every constructed indicator, also after any other calls and after a simulation that raised. Its lines are exactly the expected input columns and all columns of the current indicator data, each once, with their own dates and values, in one panel or two, with a legend per panel. Lines of one panel have different colours (over the whole graph too, except for the Relative Volatility Index), input lines are half transparent and indicator lines opaque (except ADXR); the only area is the Ichimoku cloud between its two leading lines. Earlier calls make no difference to the graph unless a simulation raised, which can only happen half way for MedianPrice(period=1) and RangeIndicator. The graph of a simulation shows price, exposure and balance of every filled row.", "quantifier": "every indicator, parameter, frame and sequence of earlier calls", "why_tests_cant": "the tests only check that a plot object is returned and leave the picture to a manual check; quantifies over all data, indicators and call histories", "anchors": ["tti/indicators/_technical_indicator.py:getTiGraph", "tti/indicators/_technical_indicator.py:_getSimulationGraph", "tti/utils/plot.py:linesGraph", "tti/indicators/properties/indicators_properties.py"]}
{"id": "C63", "title": "The line graph function draws every column of every frame", "statement": "Without areas, linesGraph accepts exactly the non-empty lists of data frames with a date index (ValueError on the empty list, TypeError otherwise); it makes one panel per frame and one line per column in order, and line k of the figure has colour k and transparency k, which are used again from the start when they run out. With areas it draws the same lines and exactly the areas asked for, and fails exactly when one of them names a panel or a column that is not there.", "quantifier": "every list of frames, colours, transparencies and areas given by columns or the dates", "why_tests_cant": "quantifies over all arguments", "anchors": ["tti/utils/plot.py:linesGraph"]}
{"id": "C64", "title": "Values are measured in prices, volumes or a product of their powers", "statement": "Counting prices in a unit p times smaller and volumes in a unit v times smaller (all prices times p>0, all volumes times v>0) gives the same exception, or values on the same days and in the same columns that are the old ones times p^a v^b, where a and b belong to the class: a=1, b=0 for the 23 classes of averages, bands, price levels and price differences (ATR, Bollinger, DPO, DEMA, Envelopes, Fibonacci, Ichimoku, LRI, LRS, Median Price, Moving Average, MACD, Parabolic SAR, Price Channel, Projection Bands, Qstick, Standard Deviation, TSF, TEMA, Typical Price, Weighted Close, Wilder, WAD), a=0, b=1 for OBV (exactly), Klinger, PVT, Volume Oscillator, ADL and Chaikin Oscillator, a=1, b=-1 for the Market Facilitation Index, a=2, b=-1 for Ease of Movement, a=b=0 (exactly) for the 21 classes of C45 that do not depend on either unit. Apart from the exact ones, a value differs by at most the class' rounding error in the two units: half a unit of the fourth decimal per rounding (one; two for Bollinger; three for MACD, TSF and the time series average), of the tenth for the Market Facilitation Index, whole numbers for ADL. A value is missing or infinite in the new units exactly if it is in the old ones. The Forecast Oscillator, Projection Oscillator, RSI, Range Indicator and Swing Index follow no such law.", "quantifier": "every input frame (also with missing values), every p, v > 0, every accepted parameter", "why_tests_cant": "relational property over pairs of inputs", "anchors": ["tti/indicators/_bollinger_bands.py:BollingerBands._calculateTi", "tti/indicators/_ease_of_movement.py:EaseOfMovement._calculateTi", "tti/indicators/_parabolic_sar.py:ParabolicSAR._calculateTi"]}
{"id": "C65", "title": "The values of related indicators fit together", "statement": "For two objects built from the same data with the same fill_missing_values, on every day: the middle Bollinger band equals the simple moving average of the same period; the time series moving average equals the Time Series Forecast; the MACD line equals the 12 minus the 26 period exponential moving average as reported; if the Price Rate of Change is a number q the Momentum is q+100; Williams %R is the number q-100 exactly if the %K line without slowing is q; the Envelopes lie symmetrically around the simple moving average at a distance of shift times the average, and the Bollinger bands std_number standard deviations (as reported by Standard Deviation) above and below the middle band, within rounding; on a day i for which the next day's Price Channel (9 or 26 periods) is known, Tenkan-sen or Kijun-sen is the middle of that channel within rounding; three Typical Prices are a Median Price plus two Weighted Closes within rounding; 100 times the Performance on day n is the n-day Price Rate of Change within rounding. If missing values were filled: the Time Series Forecast is the Linear Regression Indicator plus the Linear Regression Slope, the Forecast Oscillator is the percentage distance of the close from the previous day's reported forecast, and the Projection Oscillator is the position of the close between the reported Projection Bands.", "quantifier": "every input frame, every period, every day", "why_tests_cant": "relational property between classes over all inputs", "anchors": ["tti/indicators/_bollinger_bands.py:BollingerBands._calculateTi", "tti/indicators/_moving_average_convergence_divergence.py:MovingAverageConvergenceDivergence._calculateTi", "tti/indicators/_williams_r.py:WilliamsR._calculateTi", "tti/indicators/_projection_oscillator.py:ProjectionOscillator._calculateTi"]}
{"id": "C66", "title": "Exception messages name the parameter, the value and the indicator", "statement": "An exception about a parameter is about the first argument (in the order of the constructor) that is not as documented: its message names that argument, shows the value (or type) that was passed, and what was passed is not among the supported values (or types) that the message lists; an exception is raised exactly if there is such an argument. The message reads \"Wrong value (v) for input parameter (n). Supported values are (s).\" or \"Wrong type (t) for input parameter (n). Supported type is (s).\" unless v itself contains one of the placeholders of the template. Two oddities are proved: the message about shift of Envelopes shows the period instead, and VolumeOscillator names the parameter 'long_period ' with a blank. Messages about fill_missing_values come next, then those about the data, which name the class and the first required column that is missing or not numeric. With too few rows the message names the indicator and tells the number of required rows and the number found, and the second is smaller than the first (except for AverageTrueRange, which needs 14 rows and claims to need 2). The simulation's messages name close_values, max_exposure or short_exposure_factor and show the value passed.", "quantifier": "every constructor call with any arguments, every input, every texts Python gives for floats and other objects", "why_tests_cant": "quantifies over all argument values of all constructors", "anchors": ["tti/utils/exceptions.py", "tti/utils/data_validation.py:validateInputData", "tti/utils/trading_simulation.py:TradingSimulation._validateSimulationArguments", "tti/indicators/_envelopes.py:Envelopes.__init__"]}
{"id": "C67", "title": "Arguments by position, by keyword and by default", "statement": "A call of an indicator class gives each parameter the argument at its position, or else the one with its keyword, or else its default value; too many arguments, an unknown keyword, a parameter given twice or missing data is a TypeError. The order of keyword arguments does not matter, the next argument may be passed by position or by keyword, and leaving a parameter out is the same as passing its documented default value. The default values are accepted by every class, and with a table of prices and volumes of at least 55 rows every class can be built from the data alone; except for RangeIndicator its signal can then be asked for and it can be simulated on the same data with the default arguments of getTiSimulation. 55 rows are needed (KlingerOscillator). A call that passes a parameter as the data, or data as a parameter, creates no object; passing a parameter and nothing else raises WrongTypeForInputParameter.", "quantifier": "every class, every combination of arguments, every table of prices", "why_tests_cant": "quantifies over all calls and all data", "anchors": ["tti/indicators/__init__.py", "tti/indicators/_moving_average.py:MovingAverage.__init__", "tti/indicators/_klinger_oscillator.py:KlingerOscillator._calculateTi", "tti/indicators/_technical_indicator.py:TechnicalIndicator.getTiSimulation"]}
{"id": "C68", "title": "How many days of history a value and a signal depend on", "statement": "For each column with a limited memory (a table gives the number of days M, e.g. the period for simple averages, bands and regressions, one more where day-to-day changes enter, 29 for the ultimate oscillator, 52 and 78 for the Ichimoku cloud) the value of a day depends on that day and the M-1 days before it only: an indicator built on df[df.index >= d] has, from the M-th day on, the values and the dates of the indicator built on df, so two tables that agree since d give the same values however different they were before. Likewise, for the classes whose signal looks at a limited number of rows N, the signal computed from the latest N rows (or more) is the signal computed from all rows. The cut table can be used as soon as it has the rows the class asks for. With gaps in the data this needs the first remaining row to be known when gaps are filled. The table is exact: a column has no limit in it (exponential and Wilder averages and what is made of them, RSI, DMI, MACD, SMI, Klinger and Chaikin oscillators, mass index, running totals, retracements, parabolic SAR, performance) if and only if for every number of days there are tables that agree on that many latest days and differ in the reported value of the last day (averages of two periods or more; the column that repeats the performance target excepted). For the other columns the number of the table is the least one: with M-1 agreeing days, the day itself included, there are tables whose values on that day differ. The exceptions are least parameters, where even fewer days do: the commodity channel index, the regression slope and infinitely wide bands of one day are never numbers and the standard deviation of one day is always 0 (no day is needed), and the regression indicator, projection bands and projection oscillator of two days are made of the prices of the day itself (one day).", "quantifier": "every class, every parameter, every table, every date to cut at", "why_tests_cant": "quantifies over all data before the cut and over all histories", "anchors": ["tti/indicators/_technical_indicator.py:TechnicalIndicator.__init__", "tti/utils/data_preprocessing.py:fillMissingValues", "tti/indicators/_moving_average.py:MovingAverage._calculateTi", "tti/indicators/_ultimate_oscillator.py:UltimateOscillator._calculateTi", "tti/indicators/_on_balance_volume.py:OnBalanceVolume._calculateTi"]}
{"id": "C69", "title": "Adding the same amount to all prices", "statement": "Adding the same amount k to all prices (volumes kept) never changes whether an indicator can be built. For the classes whose values are price levels (moving averages, Bollinger and Projection Bands, Price Channel, Median and Typical Price, Weighted Close, Ichimoku Cloud, Fibonacci Retracement, Parabolic SAR, DEMA, TEMA, Wilder's Smoothing, Linear Regression Indicator, Time Series Forecast) every value rises by exactly k, for k a multiple of 0.0002, while signals and simulations stay the same. For 33 classes built from price differences, ranges or volumes the values stay the same, and so do the signals and simulations, except that the signals of the Average True Range and the Vertical Horizontal Filter depend on the level of the prices. Where a class rounds price levels before it goes on (MACD, Projection Oscillator, signal of the Standard Deviation) k has to be a multiple of 0.0002, and where it takes missing prices for zero the data have to be complete or filled. The nine classes that work with ratios of prices (e.g. Momentum) are not covered by the law, and it is false for Momentum.", "quantifier": "every listed class, every parameter, every table, every k, every sequence of calls", "why_tests_cant": "relates two executions for all data, all amounts and all call sequences", "anchors": ["tti/indicators/_bollinger_bands.py:BollingerBands._calculateTi", "tti/indicators/_parabolic_sar.py:ParabolicSAR._calculateTi", "tti/indicators/_stochastic_oscillator.py:StochasticOscillator._calculateTi", "tti/indicators/_average_true_range.py:AverageTrueRange.getTiSignal", "tti/indicators/_vertical_horizontal_filter.py:VerticalHorizontalFilter.getTiSignal"]}
{"id": "C70", "title": "Higher prices never give lower averages and channels", "statement": "If no price of one table is below the price at the same place of another table with the same dates and the same missing entries, then no value of the Moving Average (simple, exponential, triangular), Wilder's Smoothing, Envelopes, Price Channel, Ichimoku Cloud, Fibonacci Retracement, Median Price, Typical Price or Weighted Close on the first table is below the value on the second one, the rounding included, and the construction has the same outcome. The law is false for the Double Exponential Moving Average and the Linear Regression Indicator, where a higher old price lowers later values.", "quantifier": "every listed class, every parameter, every pair of ordered tables of numbers and gaps, with and without filling", "why_tests_cant": "relates two executions for all pairs of tables", "anchors": ["tti/indicators/_moving_average.py:MovingAverage._calculateTi", "tti/indicators/_price_channel.py:PriceChannel._calculateTi", "tti/indicators/_ichimoku_cloud.py:IchimokuCloud._calculateTi", "tti/indicators/_fibonacci_retracement.py:FibonacciRetracement._calculateTi", "tti/indicators/_wilders_smoothing.py:WildersSmoothing._calculateTi", "tti/indicators/_double_exponential_moving_average.py:DoubleExponentialMovingAverage._calculateTi"]}
{"id": "C71", "title": "Errors in the prices are amplified by a fixed factor at most", "statement": "If the prices of two tables with the same dates and the same missing entries differ by at most e, the indicator values differ by at most e + 0.0001 for the classes of the monotonicity law (Envelopes: (1 + shift) e + 0.0001), 2 e + 0.0001 for the Average True Range, the Detrended Price Oscillator and the Qstick, 3 e + 0.0001 for the Double and 7 e + 0.0001 for the Triple Exponential Moving Average and 2 e + 0.0003 for the MACD, however long the table and whatever the period. There is no such bound for classes that divide by a price or count volumes by the direction of the close, e.g. Momentum and On Balance Volume.", "quantifier": "every listed class, every parameter, every e >= 0, every pair of tables of numbers and gaps that differ by at most e", "why_tests_cant": "a bound over all pairs of tables, lengths and error sizes", "anchors": ["tti/indicators/_average_true_range.py:AverageTrueRange._calculateTi", "tti/indicators/_detrended_price_oscillator.py:DetrendedPriceOscillator._calculateTi", "tti/indicators/_triple_exponential_moving_average.py:TripleExponentialMovingAverage._calculateTi", "tti/indicators/_moving_average_convergence_divergence.py:MovingAverageConvergenceDivergence._calculateTi", "tti/indicators/_momentum.py:Momentum._calculateTi"]}
{"id": "C72", "title": "Indicator values on the mirrored market", "statement": "Replacing every price p by k - p (highs become lows and the other way round, volumes kept) never changes whether an indicator can be built. The values follow by a law of the class: price levels become k - v (with upper and lower bands exchanged), differences and flows change their sign, measures of volatility or volume stay the same (with +DI and -DI exchanged), indices between 0 and 100 become 100 - v and Williams %R becomes -100 - v, exactly, including the rounding to 4 decimals. This holds for 43 classes; for the Parabolic SAR it holds if the first two days show one direction, because its first position looks at the highs only. k has to be a multiple of 0.0002 where price levels are rounded and the data complete where missing prices are taken for zero. The law is false for Momentum (ratios) and for the Relative Momentum Index, which is missing on prices that only rise and 0 on prices that only fall.", "quantifier": "every listed class, every parameter, every table, every k", "why_tests_cant": "relates two executions for all data and all mirrors", "anchors": ["tti/indicators/_bollinger_bands.py:BollingerBands._calculateTi", "tti/indicators/_relative_strength_index.py:RelativeStrengthIndex._calculateTi", "tti/indicators/_directional_movement_index.py:DirectionalMovementIndex._calculateTi", "tti/indicators/_parabolic_sar.py:ParabolicSAR._calculateTi", "tti/indicators/_relative_momentum_index.py:RelativeMomentumIndex._calculateTi"]}
{"id": "C73", "title": "Signals on the mirrored market", "statement": "On the mirrored market (every price p replaced by k - p, highs and lows exchanged) the signal of a new object turns into the opposite one, buy into sell and sell into buy, for 30 classes and, if the first two days show one direction, for the Parabolic SAR; for the three classes with bands this needs that the bands are in order on the last day, which follows from low <= high. The signals of the Market Facilitation Index, Volatility Chaikin's, the Volume Oscillator and the Volume Rate of Change stay the same: they do not see the direction of the prices. The Moving Average is not symmetric: it never says sell.", "quantifier": "every listed class, every parameter, every table, every k", "why_tests_cant": "relates two executions for all data and all mirrors", "anchors": ["tti/indicators/_bollinger_bands.py:BollingerBands.getTiSignal", "tti/indicators/_williams_r.py:WilliamsR.getTiSignal", "tti/indicators/_projection_bands.py:ProjectionBands.getTiSignal", "tti/indicators/_moving_average.py:MovingAverage.getTiSignal", "tti/indicators/_market_facilitation_index.py:MarketFacilitationIndex.getTiSignal"]}
{"id": "C74", "title": "Only the order of the dates matters", "statement": "Moving the data, the close prices of the simulations and the dates asked for to other dates in the same order (weekends inserted or removed, another year) gives the same values, signals, simulation rows, statistics and exceptions, reported on the new dates; the tables of the caller are changed in the same way. The order itself does matter: the On Balance Volume of the same days in reverse order is another one.", "quantifier": "every class, every parameter, every table, every sequence of calls, every map of the dates that is strictly increasing on the dates in use", "why_tests_cant": "relates two executions for all data, all call sequences and all calendars", "anchors": ["tti/indicators/_technical_indicator.py:TechnicalIndicator.__init__", "tti/indicators/_technical_indicator.py:TechnicalIndicator.getTiValue", "tti/utils/trading_simulation.py:TradingSimulation.__init__", "tti/utils/data_validation.py:validateInputData"]}
{"id": "C75", "title": "A simulation in another currency", "statement": "If the close prices and max_exposure of a simulation are multiplied by the same c > 0, the simulation of any object takes the same actions on the same days and its counters stay the same, while stock value, exposure, portfolio value, earnings and balance of every row are multiplied by c (the reported statistics are these amounts rounded to 2 decimals). For the classes whose values do not depend on the unit of the prices the same holds if the indicator is built on the converted prices too.", "quantifier": "every object, every table of close prices, every max_exposure and short exposure factor, every c > 0", "why_tests_cant": "relates two simulations of any length for all prices, limits and exchange rates", "anchors": ["tti/utils/trading_simulation.py:TradingSimulation.runSimulationRound", "tti/utils/trading_simulation.py:TradingSimulation.closeSimulation", "tti/indicators/_technical_indicator.py:TechnicalIndicator.getTiSimulation"]}
{"id": "C76", "title": "The days before the first value and the first signal", "statement": "For every class and column there is a number of days, given by the parameters alone, on which the value at the beginning is missing whatever the data, so that data of the minimum accepted length can have no value at all. The number is exact: with numbers in the data the columns that do not divide are numbers on every later day, and the columns that divide only by prices, volumes or ranges are numbers on every later day if all days are ordinary (positive prices and volume, close within the range, range not empty). Before a number of rows given by the parameters, getTiSignal never says buy or sell and a simulation takes no action. The first signal of the Ichimoku cloud can come before there is a cloud.", "quantifier": "every class, every accepted parameter, every data frame; every close table and limit of a simulation with distinct dates", "why_tests_cant": "quantifies over all parameters and data, including data with missing values", "anchors": ["tti/indicators/_technical_indicator.py:TechnicalIndicator.getTiData", "tti/indicators/_ichimoku_cloud.py:IchimokuCloud.getTiSignal", "tti/indicators/_klinger_oscillator.py:KlingerOscillator._calculateTi", "tti/indicators/_triple_exponential_moving_average.py:TripleExponentialMovingAverage._calculateTi", "tti/indicators/_stochastic_momentum_index.py:StochasticMomentumIndex._calculateTi"]}
{"id": "C77", "title": "Periods that are accepted but too short to work", "statement": "The commodity channel index of n days lies between -100n/3 and 100n/3 (rounded to four decimals) whatever the prices, and reaches these values whenever the typical price moves after n-1 days without a move, however small the move. So with a period of 1, 2 or 3, which the constructor accepts, getTiSignal always says hold and no simulation opens a position; with 4 days a rise by one cent after three quiet days is a sell signal. Averages of one day (simple, exponential, triangular, double and triple exponential, Wilder's) and all three Bollinger bands of one day are the close rounded to four decimals; if the closes have at most four decimals these indicators never give a signal and no simulation opens a position, and with five decimals they give signals that mean nothing. With a period of one, standard deviation is 0, the commodity channel index is missing, the vertical horizontal filter is 0 or missing, Chande momentum is 100, -100 or missing and intraday momentum is 100, 0 or missing.", "quantifier": "every data frame of numbers, every day; every close table and limit of a simulation", "why_tests_cant": "quantifies over all price data: a test shows hold on some prices, not that no prices give a signal", "anchors": ["tti/indicators/_commodity_channel_index.py:CommodityChannelIndex.getTiSignal", "tti/indicators/_moving_average.py:MovingAverage.getTiSignal", "tti/indicators/_bollinger_bands.py:BollingerBands.getTiSignal", "tti/indicators/_wilders_smoothing.py:WildersSmoothing.getTiSignal", "tti/indicators/_chande_momentum_oscillator.py:ChandeMomentumOscillator._calculateTi"]}
{"id": "C78", "title": "Signals from two lines crossing alternate", "statement": "The 15 classes that compare one line with another line or with zero on two consecutive days (detrended price oscillator, ease of movement, price oscillator, forecast oscillator, Klinger oscillator, regression slope and indicator, time series forecast, swing index, weighted close, Wilder's smoothing, Parabolic SAR, median price, momentum, positive volume index) report buy in a simulation on exactly the days on which the first line was strictly below the second one on the day before and is strictly above it on the day, and sell on exactly the days of the opposite crossing. So between two buy signals there is a sell signal and the other way round, if the lines are never equal or missing in between, and the statistics then count equally many buy and sell signals up to one. Days on which the lines are equal break this: two buy signals can follow each other without a sell. Signals from two thresholds (relative strength index) can repeat too.", "quantifier": "every data frame with distinct dates, every accepted parameter of the 15 classes, every close table and limit, every pair of days", "why_tests_cant": "alternation is a statement about whole histories of any length, not about a signal on sample data", "anchors": ["tti/indicators/_weighted_close.py:WeightedClose.getTiSignal", "tti/indicators/_parabolic_sar.py:ParabolicSAR.getTiSignal", "tti/indicators/_momentum.py:Momentum.getTiSignal", "tti/indicators/_positive_volume_index.py:PositiveVolumeIndex.getTiSignal", "tti/indicators/_technical_indicator.py:TechnicalIndicator.getTiSimulation"]}
{"id": "C79", "title": "Stricter parameters give fewer signals", "statement": "On the same data, Bollinger bands with more standard deviations contain those with fewer, envelopes with a larger shift contain those with a smaller one (closes not negative), and the price channel of more days contains that of fewer days where both exist. Every signal that a simulation reports with the wider bands (or, for the performance indicator, the more distant target) is reported on the same day with the narrower ones, and the statistics count at least as many signals with the narrower ones. For the period of the envelopes there is no such rule: a longer period can give a signal on a day on which the shorter one gives none.", "quantifier": "every data frame of numbers, every pair of accepted parameters, every close table and limit", "why_tests_cant": "compares two executions for all data and all parameter pairs, including the rounding of the bands", "anchors": ["tti/indicators/_bollinger_bands.py:BollingerBands.getTiSignal", "tti/indicators/_envelopes.py:Envelopes.getTiSignal", "tti/indicators/_price_channel.py:PriceChannel.getTiSignal", "tti/indicators/_performance.py:Performance.getTiSignal"]}
{"id": "C80", "title": "Without a limit the signals do not interfere", "statement": "Without max_exposure, if the signals are divided into two groups in any way (for example buy and sell signals) and each group is simulated alone on the same prices, then on every day the exposure, the portfolio value, the earnings and the balance of the two simulations add up to those of the simulation of all signals. So a simulation that gives only signals another one gives too never earns more on any day, and its exposure is never larger if no close is negative; and a simulation with a limit never earns more than the same one without, on any day. With a limit the signals do interfere: a smaller limit can earn more than a larger one, and fewer signals more than all of them.", "quantifier": "every list of prices and signals, every division of the signals, every factor >= 1, every day; every pair of objects and every close table of numbers in getTiSimulation", "why_tests_cant": "compares two or three executions over all histories; an example shows one sum, not additivity", "anchors": ["tti/utils/trading_simulation.py:TradingSimulation.runSimulationRound", "tti/utils/trading_simulation.py:TradingSimulation._closeOpenPositions", "tti/utils/trading_simulation.py:TradingSimulation._processSignal", "tti/indicators/_technical_indicator.py:TechnicalIndicator.getTiSimulation"]}
{"id": "C81", "title": "The simulation scripts report the simulations a user would get alone", "statement": "On a table of at least 55 rows of prices and volumes whose close column is labelled 'close', every result that run_all_simulation.py reports is the simulation of that class, with the arguments of that run, done alone on the table as it was read, although all runs share one table and the first of them renames its columns. Either all 62 runs are reported, or the script ends with IndexError at RangeIndicator, whose simulation alone raises it too, and the indicators after it are never simulated; such a table exists. run_single_simulation.py reports exactly the simulation with the arguments of the command line: a whole number is an integer, a number with one decimal is a float, but a number with two or more decimals, a negative number or a word stays text, so that a shift or target with two decimals is refused; a keyword given twice is passed on once, with its last value. The first argument without '=' ends the script with IndexError and the first without a value with ValueError, before anything is simulated; a name that is not 'tti.indicators.' and a class of the package is reported as invalid, and only such a name. Without a column labelled exactly 'close' both scripts end with KeyError.", "quantifier": "all tables, all indicators, all command lines", "why_tests_cant": "The scripts are run on one file; that sharing the table between 62 runs is harmless, and where the loop can stop, concerns all tables.", "anchors": ["signals_simulation/run_all_simulation.py:17-191", "signals_simulation/run_single_simulation.py:20-97", "tti/indicators/_technical_indicator.py:284-330"]}
{"id": "C82", "title": "A simulation in float64 arithmetic stays within its limit and close to the exact ledger", "statement": "Let every addition, subtraction, multiplication and division of a simulation be followed by a rounding that is monotone, idempotent and has relative error at most u; rounding to 53 binary digits, half to even, is one with u = 1/2^53. Prices are not negative. Then with a limit no recorded exposure exceeds the limit. If the rounded products with the short exposure factor keep different prices apart (they do if the prices differ by more than two relative roundings), the recorded earnings of row i differ from the exact profit of the recorded actions by at most ((1+u)^(i+5)-1) times the turnover of the closed positions, in float64 at most (i+5)/2^52 times it; exposure, portfolio value and balance have similar bounds. Without a limit no action changes and the exact simulation is met within these bounds. The exact claims themselves fail in float64: seven longs at 7.84 closed at the next number record negative earnings, a limit of 38.01 admits longs whose prices exceed it, a limit of 0.3 refuses the third long at 0.1, and a short at 57.21 is not closed by the next smaller number.", "quantifier": "all roundings, all price and signal histories, all limits and factors", "why_tests_cant": "Rounding errors accumulate over the rows; tests compare a few runs with stored results and cannot bound the error of all histories.", "anchors": ["tti/utils/trading_simulation.py:361-459", "tti/utils/trading_simulation.py:338-359", "tti/utils/trading_simulation.py:460-627"]}
{"id": "C83", "title": "Columns filled by writes that name the date equal the row-by-row columns for distinct dates; repeated dates show the last row and look ahead", "statement": "Twelve indicators fill a column in a loop whose writes name the date of a row (df.loc[index[i], name] = value) or take the entries of a series by date. For every table with distinct dates, the construction with these loops as written has the same outcome - object, exception, table of the caller - as the calculation row by row that the other claims are about. With repeated dates, the Negative and Positive Volume Index, the Price and Volume Trend, Wilder's Smoothing and the variable moving average give each row the value that the row-by-row calculation has at the last row with that date; the last row and rows with a date of their own are not affected. Appending a row with the date of the last row changes the value of the row before it.", "quantifier": "all call arguments, all tables, all fill arguments", "why_tests_cant": "The writes coincide with positional writes on the tables of the tests, which have distinct dates; that they always do, and what they do otherwise, is a statement about the whole loop.", "anchors": ["tti/indicators/_negative_volume_index.py:70-84", "tti/indicators/_positive_volume_index.py:70-84", "tti/indicators/_price_and_volume_trend.py:70-79", "tti/indicators/_wilders_smoothing.py:87-98", "tti/indicators/_moving_average.py:165-174", "tti/indicators/_relative_strength_index.py:94-133", "tti/indicators/_relative_momentum_index.py:108-138", "tti/indicators/_relative_volatility_index.py:107-174", "tti/indicators/_directional_movement_index.py:94-177", "tti/indicators/_range_indicator.py:124-151", "tti/indicators/_on_balance_volume.py:60-69", "tti/indicators/_williams_accumulation_distribution.py:67-84"]}
{"id": "C84", "title": "The simulator object: rounds in order give the ledger, a round writes its own row only", "statement": "The simulator allocates its portfolio array and its data frame for all dates at the start and is told the row number of each round. Executing the rounds 0, 1, 2, ... fills exactly these rows with the ledger that the other claims are about, leaves the rest of the frame empty and returns its statistics, in any arithmetic; getTiSimulation with this object has the same outcome (object, close values of the caller, exception, data, statistics). A round of any simulator with any row number writes no other row of the frame, and of the other rows of the portfolio it changes only the status, from open to closed, for positions the price of the day closes at a profit. If a round is executed twice its closings are lost: the earnings of the row become those of the row before. If a round is left out, exposure is missing from then on and max_exposure is not applied any more.", "quantifier": "all prices, signals, limits, factors, and all states of the simulator", "why_tests_cant": "Tests run complete simulations in order and compare them with stored results; that masks over the whole array never select a row of the future, and what a round may touch, concerns every state.", "anchors": ["tti/utils/trading_simulation.py:157-213", "tti/utils/trading_simulation.py:283-458", "tti/utils/trading_simulation.py:460-627", "tti/indicators/_technical_indicator.py:401-433"]}
{"id": "C85", "title": "Float64 error bounds: running averages, price transforms, ranges, levels and rates", "statement": "With a rounding after each operation (float64: relative error at most 2^-53), the values of the exponential, double and triple exponential moving averages, MACD and its signal line, Wilder's smoothing, median and typical price, weighted close, price channel, Ichimoku lines, Fibonacci levels, momentum, price and volume rate of change, Williams %R, performance and market facilitation index differ from the exact formula by at most the half unit of the last decimal (three halves for MACD, which subtracts averages that are rounded already) plus a small multiple of 2^-53 times the size of the numbers. The multiple depends on the period but not on the number of days: errors of earlier days do not pile up.", "quantifier": "all tables of numbers of any length, all days, all periods with 10000*(period+1) <= 2^53, any order of adding up a mean, any arithmetic with a bounded relative error", "why_tests_cant": "Tests compare with stored results of one table on one machine; how errors of a recursive average accumulate over unboundedly many days needs an argument for every table.", "anchors": ["tti/indicators/_moving_average.py:94-176", "tti/indicators/_double_exponential_moving_average.py:68-97", "tti/indicators/_triple_exponential_moving_average.py:68-102", "tti/indicators/_moving_average_convergence_divergence.py:54-88", "tti/indicators/_wilders_smoothing.py:68-100", "tti/indicators/_median_price.py:65-91", "tti/indicators/_typical_price.py:65-82", "tti/indicators/_weighted_close.py:52-68", "tti/indicators/_price_channel.py:70-109", "tti/indicators/_ichimoku_cloud.py:53-91", "tti/indicators/_fibonacci_retracement.py:53-81", "tti/indicators/_momentum.py:68-95", "tti/indicators/_price_rate_of_change.py:68-97", "tti/indicators/_volume_rate_of_change.py:68-96", "tti/indicators/_williams_r.py:70-102", "tti/indicators/_performance.py:83-107", "tti/indicators/_market_facilitation_index.py:52-72"]}
{"id": "C86", "title": "Float64 error bounds: moving windows", "statement": "pandas keeps the sum of a window up to date from day to day (subtract the value that leaves, add the new one, both with a correction of the rounding error). The values of the simple and triangular moving averages, envelopes, volume oscillator, qstick and detrended price computed this way differ from the exact formula by at most the half unit of the last decimal plus 19 to 42 times 2^-53 times the number of days times the size of the numbers, although the running sum has gone through all earlier days.", "quantifier": "all tables of numbers with 10000*days <= 2^53, all days, all periods, any arithmetic with a bounded relative error", "why_tests_cant": "Whether subtracting and adding for thousands of days drifts away from the true mean cannot be seen on sample data.", "anchors": ["tti/indicators/_moving_average.py:94-176", "tti/indicators/_envelopes.py:79-109", "tti/indicators/_volume_oscillator.py:85-118", "tti/indicators/_qstick.py:68-95", "tti/indicators/_detrended_price_oscillator.py:68-96"]}
{"id": "C87", "title": "Signals in float64 agree with exact arithmetic away from ties", "statement": "The signals of the simple, exponential, triangular, double and triple exponential moving averages, Wilder's smoothing, envelopes and price channel are those of exact arithmetic, computed from the unrounded formula, whenever the closes compared differ from the exact values by more than the error bound. With closes up to a million, periods up to 1000 and at most 100000 rows this bound is below 0.0001 for the exponential and 0.0003 for the simple moving average.", "quantifier": "all tables of numbers, all periods, any arithmetic with a bounded relative error, and float64 in particular", "why_tests_cant": "A comparison that rounding turns around needs particular prices; that it cannot happen outside a given margin is a statement on all prices.", "anchors": ["tti/indicators/_moving_average.py:178-196", "tti/indicators/_double_exponential_moving_average.py:99-117", "tti/indicators/_triple_exponential_moving_average.py:104-126", "tti/indicators/_wilders_smoothing.py:102-128", "tti/indicators/_envelopes.py:111-134", "tti/indicators/_price_channel.py:111-135"]}
{"id": "C88", "title": "The float64 calculations without rounding are the exact indicators", "statement": "The float64 model follows pandas and the library operation by operation (running sums that subtract the row that leaves and add the one that enters, each with a correction; normalised exponential weights; loops). If no operation rounds, the constructor returns, for every indicator class, every argument and every input, the same object or the same exception as the exact model with its plain formulas. In particular the running-sum loops of rolling().mean() and rolling().sum() give the mean and the sum of the numbers in the window, and that of rolling().std() the root of their variance, with missing and infinite values anywhere. So rounding is the only difference between the two models.", "quantifier": "all classes and arguments, all input frames (missing and infinite values included), all windows and min_periods", "why_tests_cant": "Float results never equal the formula exactly, so a test with a tolerance cannot tell a rounding error from a small mistake in a loop.", "anchors": ["tti/indicators/_technical_indicator.py:48-69", "tti/indicators/_moving_average.py:94-176", "tti/indicators/_chande_momentum_oscillator.py:69-107", "tti/indicators/_parabolic_sar.py:91-206"]}
{"id": "C89", "title": "Rounding cannot break construction, shape, signals or causality", "statement": "Whatever the arithmetic does to the results of the operations: the constructor raises the same exceptions in the same cases; the indicator data has the same columns, dates and number of values; the order of the input rows makes no difference to the last bit; the signal raises only on the listed data and follows the signal table on the rounded data; every sequence of API calls leaves the object as it was (median price of period 1 and range indicator excepted, whose simulations can fail half way); and an object built on the rows up to a day equals, to the last bit, the object built on all rows cut at that day, so that a backtest shows the signals a live user would have had.", "quantifier": "any function as rounding and any way of adding up, all classes (for causality: the causal ones), all input frames, all days", "why_tests_cant": "A running sum carries rounding errors from row to row; that later rows never change the bits of earlier results is a statement on all data and all arithmetics.", "anchors": ["tti/indicators/_technical_indicator.py:48-69", "tti/indicators/_technical_indicator.py:284-433", "tti/indicators/_moving_average.py:94-176"]}
{"id": "C90", "title": "Days without a change leave no rounding noise", "statement": "In float64 (pandas 2.3) the window sums carry the rounding errors of all earlier days. Still, when the price (or volume) has not changed for the length of the window (of both windows for the triangular average, and one day longer where daily moves are summed), no noise shows: the simple and triangular moving average report the price itself rounded to four decimals, the envelopes the price times 1+-shift, price, volume and detrended oscillator are exactly 0, qstick is exactly 0 after days that close where they open, MACD is exactly 0 while the close has never changed; and the Chande momentum oscillator, intraday momentum index, vertical horizontal filter, commodity channel index, Williams %R and stochastic %K have no value (NaN) instead of the quotient of two rounding errors. A window mean of non-negative numbers is never negative, of negative numbers never positive.", "quantifier": "any arithmetic that does not round 0, all earlier data, all periods, all days", "why_tests_cant": "The residue of a running sum depends on all earlier data; tests on flat tables start without residue.", "anchors": ["tti/indicators/_moving_average.py:94-176", "tti/indicators/_envelopes.py:79-109", "tti/indicators/_volume_oscillator.py:85-118", "tti/indicators/_price_oscillator.py:80-110", "tti/indicators/_chande_momentum_oscillator.py:68-111", "tti/indicators/_commodity_channel_index.py:69-108"]}
{"id": "C91", "title": "The reported number is the correctly rounded one, to the bit", "statement": "In float64 every number that a class with four decimals reports is the float next to a number with four decimals; and whenever an error bound (C85, C86) leaves no tie in reach, it is the float next to the exact result rounded to four decimals - no other bit pattern is possible. For prices quoted in cents (each stored as the nearest float) the median price, weighted close, typical price and price channel therefore report exactly the float of the decimal result computed by hand, and the simple moving average does so unless the exact mean lies within 1/100 of a unit of the fourth decimal of a tie. On-balance volume of whole volumes that sum to at most 2^53 has no rounding error at all: the object equals the one exact arithmetic gives.", "quantifier": "all tables of quoted prices, all periods, all days; any rounding with relative error, monotone and idempotent, with a unit small against the prices", "why_tests_cant": "Tests compare a few samples, usually with a tolerance; equality to the bit for all quotations is a statement about all roundings on the way.", "anchors": ["tti/indicators/_median_price.py:65-92", "tti/indicators/_typical_price.py:65-83", "tti/indicators/_weighted_close.py:52-69", "tti/indicators/_price_channel.py:70-110", "tti/indicators/_moving_average.py:94-176", "tti/indicators/_on_balance_volume.py:52-73"]}
{"id": "C92", "title": "Rounding errors never push an oscillator out of its range", "statement": "In float64, on all tables of price bars and for all periods: RSI, RMI, the stochastic %K without slowing, DX, ADX and ADXR are between 0 and 100, Williams %R between -100 and 0 and the swing index between -100 and 100 (or the value is missing; it is never infinite) - not exceeded even by the last bit, although the values before the final rounding can exceed it. A close at the highest high gives exactly 0 for Williams %R and exactly 100 for %K, a close at the lowest low exactly -100 and 0. The intraday momentum index has no such guarantee: pandas' running sum of rises can become negative, and four days are given for which the index is -50 in float64 instead of 25.", "quantifier": "all tables of bars, all periods, all days, any rounding that is monotone, idempotent, symmetric in sign, exact on whole numbers up to 10^6 and with relative error at most 10^-10 (float64 is one)", "why_tests_cant": "Users compare with thresholds and feed the values to code that assumes the range; whether some table exceeds 100 by a bit after thousands of recursive roundings cannot be sampled.", "anchors": ["tti/indicators/_relative_strength_index.py:68-137", "tti/indicators/_relative_momentum_index.py:79-147", "tti/indicators/_stochastic_oscillator.py:115-194", "tti/indicators/_directional_movement_index.py:55-183", "tti/indicators/_williams_r.py:70-102", "tti/indicators/_swing_index.py:52-107", "tti/indicators/_intraday_momentum_index.py:69-106"]}
{"id": "C93", "title": "Averages never leave the range of the prices in float64", "statement": "If the prices have at most four decimals (each stored as the nearest float), the simple moving average lies between the lowest and the highest stored price of its window, the exponential moving average and Wilder's smoothing between the lowest and the highest price so far, and median price, typical price and weighted close between the low and the high of the day, compared as floats without tolerance. With five decimals this is false: the average of two prices of 1.00004 is reported as 1.", "quantifier": "all tables of prices with four decimals, all periods, all days, any monotone and idempotent rounding with a unit small against the prices", "why_tests_cant": "Float means can leave the range of their numbers; that rounding to four decimals always repairs it is a statement about all prices and all error patterns.", "anchors": ["tti/indicators/_moving_average.py:94-176", "tti/indicators/_wilders_smoothing.py:68-100", "tti/indicators/_median_price.py:65-91", "tti/indicators/_typical_price.py:65-82", "tti/indicators/_weighted_close.py:52-68"]}
{"id": "C94", "title": "Programs with several indicators: what is shared and what is not", "statement": "A program may hold any number of frames and indicators, write into all of them and call everything in any order. No two indicators ever return the same frame from getTiData. As long as the program does not write into the frame of an indicator (or pass it back to the library), whatever else it does - build others from the same data, overwrite the data the indicator was built from, simulate others - changes nothing it sees of this indicator, call by call; getTiData returns the same frame before and after a successful simulation. A value written into the frame returned by getTiData is written into this indicator, and no other, and its values and signals follow it. The frames of the program that it does not write into itself keep their dates, values and types, at most labels of frames passed to the library become lower case, and frames never passed do not change at all. A simulation whose arguments are rejected leaves every indicator with the frame it had. After one that raised in a round, the frame received earlier is complete but detached: no indicator uses it any more.", "quantifier": "all programs (sequences of constructions, calls and writes), all frames, all indicators", "why_tests_cant": "Sharing bugs show up only in particular interleavings of constructions, writes and calls; a test runs one of them.", "anchors": ["tti/indicators/_technical_indicator.py:48-69", "tti/indicators/_technical_indicator.py:126-134", "tti/indicators/_technical_indicator.py:396-433", "tti/utils/data_validation.py:67-102"]}
{"id": "C95", "title": "The data of an indicator passed back to the library", "statement": "The frame returned by getTiData is never valid data: any class with accepted parameters raises ValueError on it, and no simulation accepts it as close_values. The attempt has a side effect on the indicator the frame belongs to: its labels become lower case. For all classes but two this is no change, and no other indicator is affected; Performance keeps its values and signal; a Stochastic Oscillator with two rows or more raises on getTiSignal from then on.", "quantifier": "all constructed indicators, all classes and parameters of the second call, all worlds of other frames and indicators", "why_tests_cant": "It needs one indicator's output as another one's input, an exception that is caught, and a later call of the first indicator, for all pairs of classes.", "anchors": ["tti/utils/data_validation.py:67-91", "tti/indicators/_stochastic_oscillator.py:195-245", "tti/indicators/_performance.py:83-129", "tti/utils/trading_simulation.py:233-262"]}
{"id": "C96", "title": "Deviations, Bollinger bands and relative volatility in float64", "statement": "pandas updates the variance of a window from row to row and never starts afresh. With a rounding after each operation: the standard deviation is missing on the first period-1 days and a number that is never negative afterwards; the lower Bollinger band is at most the middle one and the middle one at most the upper one, for closes whose mean is reported below 90 billion; the relative volatility index lies between 0 and 100. On days on which the close has not changed for the whole period the deviation is exactly 0 and the three bands coincide, whatever came before. The deviation is not a function of the prices in the window: after a single wrong price of 72 million among prices of 13, the deviation over three later days is reported as 0 instead of 0.4714 and the Bollinger bands signal to buy where exact arithmetic holds; after a price of a billion it is 6.5322 instead of 0.1179.", "quantifier": "all tables of numbers of any length, all days, periods and numbers of deviations, any arithmetic with a small relative error, any square root that is non-negative", "why_tests_cant": "Negative variances and leftovers of prices that left the window show up for particular sequences only; a test compares one smooth table with a tolerance.", "anchors": ["tti/indicators/_standard_deviation.py:75-121", "tti/indicators/_bollinger_bands.py:80-150", "tti/indicators/_relative_volatility_index.py:85-175"]}
{"id": "C97", "title": "Signals and whole simulations in float64", "statement": "With a rounding after each operation in the constructor, in the averages that nine signal methods calculate themselves and in the simulation: a signal raises only where C34 says, for the object and every cut of it; every sequence of calls leaves the object as it was (except the two classes of C17); the signal that a simulation records for a day is, to the last bit, the one a live user gets from the data up to that day; with a numeric max_exposure no recorded exposure is above it; the earnings recorded in float64 are the profits of the closed positions up to (day+5)/2^52 of the money moved, for closes that differ by more than two roundings. For all classes but the nine the signal is that of exact comparisons of the reported numbers. For the nine the rounding can decide: with highs 11.50, 10.42, 10.96 the typical price holds in float64, while the exact average of the same numbers would buy. Without rounding all this is the exact model.", "quantifier": "all classes, tables, calls and sequences of calls, all arguments of the simulation, any arithmetic (for the last claims any monotone one with small relative error)", "why_tests_cant": "A rounding that differs between the backtest and the live run, or that lifts the exposure over the limit, needs particular numbers; a test runs a few tables.", "anchors": ["tti/indicators/_technical_indicator.py:284-433", "tti/utils/trading_simulation.py:361-627", "tti/indicators/_typical_price.py:84-105", "tti/indicators/_momentum.py:97-128", "tti/indicators/_standard_deviation.py:99-125", "tti/indicators/_vertical_horizontal_filter.py:115-153"]}
{"id": "C98", "title": "Exponential and Wilder averages forget old prices at a fixed rate", "statement": "Two tables that agree on all days since d (for example a table and the same table cut at d) give exponential averages that are, on the k-th common day (from 0), apart by at most ((n-1)/(n+1))^(k+1) times the spread of the closes up to d, plus 0.0001 for the rounding; every n further days leave at most a fifth of the spread. The same holds with a factor 3(1+2k/(n+1)) for the double and 7(1+2k/(n+1))^2 for the triple exponential average (counted from day n-1 and 2n-2), with the rate 1-1/n for Wilder's smoothing and 13/14 for the average true range (counted from the first value), and with the rate 25/27 for the MACD and its signal line. If the last close is farther from the exponential average than this bound, the two tables give the same signal. The memory never ends, though: for every n >= 2 and every k >= n-2 there are two tables of k+2 days that agree on the last k+1 days and report 3 and 2.", "quantifier": "every pair of tables of numbers that agree since a date, every date, period and day", "why_tests_cant": "How much history has to be loaded for a value to be reliable is a question about all possible histories; a test compares one pair.", "anchors": ["tti/indicators/_moving_average.py:126-129", "tti/indicators/_double_exponential_moving_average.py:83-97", "tti/indicators/_triple_exponential_moving_average.py:83-102", "tti/indicators/_wilders_smoothing.py:78-100", "tti/indicators/_average_true_range.py:53-90", "tti/indicators/_moving_average_convergence_divergence.py:54-88"]}
{"id": "C99", "title": "What a simulation can win and lose", "statement": "In the data that getTiSimulation returns, the positions that are open in the evening never show a profit at that day's close, so the profit of all positions is at most the `earnings` column. A position is closed with a profit that is at most the move of the close on the closing day alone; so on one day `earnings` grows by at most the rise of the close for every open long and the fall for every open short, and with max_exposure M and closes of at least m > 0 it stays below M/m times the sum of the daily moves. On closes that are not negative the total loss is at most the `exposure` column, hence at most M, as long as no short is open whose opening price times (1 + factor) is below the close; in particular without shorts, and so for the indicators that never sell, for which `balance` also never falls below `earnings`. With shorts a limit does not limit the loss: for every limit, factor and amount there are positive closes after which more than this amount is lost. This happens to a shipped indicator: for every limit, factor and amount there is a market of four days, every close above the one before, on which a simulation of OnBalanceVolume has lost more than this amount on the last day; and for every amount below the limit there is a falling market on which it loses more than this amount, so the bound M for longs is sharp.", "quantifier": "every indicator object after any calls, every table of closes, every accepted limit and factor, every day", "why_tests_cant": "The bounds speak about all markets and all ledgers that the simulation can build; a test sees the profit and loss of one market.", "anchors": ["tti/utils/trading_simulation.py:361-458", "tti/utils/trading_simulation.py:460-591", "tti/utils/trading_simulation.py:338-359", "tti/indicators/_technical_indicator.py:404-427"]}
{"id": "C100", "title": "The public function tti.utils.fillMissingValues", "statement": "tti.utils.fillMissingValues raises TypeError for everything that is not a DataFrame and never raises for a DataFrame with comparable dates. It returns the rows in ascending order of the dates with the same columns, labels and types; every missing value becomes the last known value before it, or, if there is none, the first known value after it, and only a column without any known value keeps missing values. With distinct dates a known value stays at its date in its column, and the order of the rows passed does not matter. A second call changes nothing, and a frame in date order without gaps is returned as it is. Calling it before building an indicator, with or without fill_missing_values, gives the same indicator or the same exception as fill_missing_values=True without it, and calling it on the closes before a simulation gives the same simulation.", "quantifier": "every frame with columns of equal length, every indicator call, every object and every simulation argument", "why_tests_cant": "The agreement with the internal filling is over all frames and all indicators, including rejected ones; a test compares some frames.", "anchors": ["tti/utils/data_preprocessing.py:11-42", "tti/utils/__init__.py:7-9", "tti/utils/data_validation.py:94-104"]}
{"id": "C101", "title": "What the indicators show in a market that only rises or only falls", "statement": "When the closes never fall: the simple, exponential, triangular and Wilder averages never fall and are never above the close (up to the rounding to four decimals); the price oscillator, the rate of change, the MACD and its signal line, the regression slope and Williams accumulation/distribution are never negative, momentum is never below 100, the performance, on-balance volume, the price and volume trend and the two volume indices never fall; the Chande momentum oscillator is exactly 100 (missing if the close equals the one n days before), the relative strength index is 100 or missing, and the relative momentum index has no value at all. When the closes never rise all this holds mirrored: the averages never rise and are never below the close, the oscillators are not positive, momentum is at most 100, Chande is -100, the relative strength index 0, the relative momentum index 0 or missing. When neither highs nor lows ever fall, -DI is 0 and DX is 100 (or missing as long as nothing moved) and the Ichimoku conversion line is never below the base line; a parabolic SAR that starts long is never above the low of the day; and mirrored.", "quantifier": "every frame of numbers whose columns go one way, every period, every day; positive closes where a quotient of closes is formed, and volumes that are not negative for the volume indicators", "why_tests_cant": "It is about every one-way market of any length and every period; a test has one table.", "anchors": ["tti/indicators/_moving_average.py:94-177", "tti/indicators/_price_oscillator.py:80-111", "tti/indicators/_chande_momentum_oscillator.py:68-112", "tti/indicators/_relative_strength_index.py:68-138", "tti/indicators/_relative_momentum_index.py:79-148", "tti/indicators/_directional_movement_index.py:55-184", "tti/indicators/_parabolic_sar.py:58-207", "tti/indicators/_on_balance_volume.py:52-74", "tti/indicators/_linear_regression_slope.py:68-115"]}
{"id": "C102", "title": "Signals and simulations in a market that only rises or only falls", "statement": "On the object and on every day of a simulation: when the closes never fall, or never rise, the Chande momentum oscillator, the relative strength index, the relative momentum index, the linear regression slope and (positive closes) the price oscillator hold; so do the Ichimoku cloud and the directional movement index when highs and lows go one way, the parabolic SAR of a market that starts in its direction, the positive volume index, Wilder's smoothing, and in a market that never rises the moving averages and the negative volume index. On-balance volume, price and volume trend, Fibonacci retracement, Chaikin money flow, the standard deviation, Bollinger bands, envelopes and the commodity channel index never buy in a market that never falls and never sell in one that never rises; on-balance volume even sells on every day from the third on when closes rise every day, and buys when they fall every day. The Chaikin oscillator never sells in a market that never falls. A simulation of the Chande momentum oscillator, the relative strength index, the relative momentum index or the regression slope makes no trade. A simulation in which no day asks to buy earns nothing when the closes never fall (there are only shorts), and one in which no day asks to sell earns nothing when they never rise, so on-balance volume, price and volume trend, Fibonacci retracement and Chaikin money flow earn nothing in such markets.", "quantifier": "every frame of numbers whose columns go one way, every period, every day of every simulation with any closes, limit and factor; four decimals at most where a rounded line is compared with the close, positive closes and volumes that are not negative for the volume classes", "why_tests_cant": "It is about every one-way market of any length and every day of every simulation on it.", "anchors": ["tti/indicators/_chande_momentum_oscillator.py:113-135", "tti/indicators/_relative_strength_index.py:139-161", "tti/indicators/_on_balance_volume.py:75-109", "tti/indicators/_fibonacci_retracement.py:83-147", "tti/indicators/_directional_movement_index.py:185-218", "tti/indicators/_ichimoku_cloud.py:115-166", "tti/indicators/_commodity_channel_index.py:110-133", "tti/indicators/_positive_volume_index.py:86-113"]}
{"id": "C103", "title": "Where the history starts only moves the level of the running totals", "statement": "Two tables agree on all days since a date and may differ before it. On the common days the two on-balance volumes differ by one constant, exactly. The price and volume trends differ by one constant up to 1/10000, and the accumulation distribution lines (no day with high equal to low) up to less than 2. The negative volume indices have one constant positive ratio, and so do the positive volume indices and one plus the performances (there the ratio of the first closes), up to the rounding to four decimals; closes are positive. With three common days the on-balance volume signal is the same for both tables. The price and volume trend signal is the same if each of the last two days moves the trend by more than 1/10000; without that the rounding can make the signals differ. The accumulation distribution signal compares with 0, so for every number of common days there are two tables whose signals are buy and sell.", "quantifier": "every two frames of numbers that agree since a date, every number of common days", "why_tests_cant": "It relates all pairs of histories of any length, and the last part speaks about every number of common days.", "anchors": ["tti/indicators/_on_balance_volume.py:52-109", "tti/indicators/_price_and_volume_trend.py:53-117", "tti/indicators/_negative_volume_index.py:53-84", "tti/indicators/_positive_volume_index.py:53-84", "tti/indicators/_performance.py:83-107", "tti/indicators/_accumulation_distribution_line.py:52-104"]}
{"id": "C104", "title": "What a gap does to the values when it is left in the data", "statement": "An indicator is built with fill_missing_values=False and an entry of its data is missing on some day. (1) In 35 classes there are days, given for each column of the indicator and each column of the data, on which the value is then certainly missing: the days whose window contains the gap for the classes with windows (one more day where day-to-day changes enter), the day of the gap for the classes without, and, once past the start-up days, all later days for the variable moving average, directional movement, price and volume trend, relative momentum and Wilder smoothing. (2) For the classes with a bounded memory (C68) that neither look ahead nor build an inner indicator, a gap changes no value outside: two tables that agree on the remembered days have the same value, whatever is missing before and after. (3) The linear regression indicator and the commodity channel index count a missing price as zero; all closes equal but one missing gives a regression above the price and a buy signal, where the filled data give hold. (4) The time series forecast, the time series moving average and the Chaikin oscillator fill the gap although told not to: their values are those with fill_missing_values=True. (5) The exponential moving average repeats its value during a gap and the first close after the gap moves it more than usual, by the given fraction; the MACD line is the difference of two such averages.", "quantifier": "every data frame, every position of the gap and every other gap, every parameter, every column and day", "why_tests_cant": "A test has gaps at a few places of one table; whether a gap stays inside its window, or hides the rest of the history, is a statement about all tables and all days.", "anchors": ["tti/indicators/_linear_regression_indicator.py:66-103", "tti/indicators/_commodity_channel_index.py:67-108", "tti/indicators/_time_series_forecast.py:66-109", "tti/indicators/_chaikin_oscillator.py:56-91", "tti/indicators/_moving_average.py:94-176", "tti/utils/data_validation.py:15-112"]}
{"id": "C105", "title": "Baskets: the averages of a sum, its volatility, and a paper traded on two exchanges", "statement": "(1) When every price and volume of a table is a times that of a first table plus b times that of a second one, then the simple, exponential, triangular and time series moving average, double and triple exponential average, Wilder smoothing, middle Bollinger band, envelopes, MACD and its signal line, median, typical and weighted price, detrended price, qstick, volume oscillator, regression slope, regression indicator and time series forecast of the table are, on every day, a times the value of the first plus b times the value of the second, up to (1+|a|+|b|) roundings (half a unit of the fourth decimal; two or three of them where rounded numbers enter); the values are missing on the same days. (2) With a, b >= 0 the basket is never more volatile than its parts together: average true range and standard deviation are at most the sum of those of the parts, the upper Bollinger band and the highest high are at most, the lower band and the lowest low at least the sum, up to the roundings and the error of the square root. (3) When the prices of the three tables are the same and only the volumes add up (trade in one paper on two exchanges), the on-balance volume is exactly the sum, and so are, up to the roundings, price and volume trend, volume oscillator, Klinger oscillator, accumulation distribution line and Chaikin oscillator (the last two cut off decimals; no flat day).", "quantifier": "all tables without gaps, all amounts a and b (also negative in (1) and (3)), all parameters, all days", "why_tests_cant": "A relation between the outputs for three tables, for all tables and amounts; example tables say nothing about the rest, and rounded intermediate values make it hold only up to a bound that has to be proved.", "anchors": ["tti/indicators/_moving_average.py:94-176", "tti/indicators/_moving_average_convergence_divergence.py:54-88", "tti/indicators/_linear_regression_slope.py:68-114", "tti/indicators/_average_true_range.py:53-90", "tti/indicators/_standard_deviation.py:66-97", "tti/indicators/_on_balance_volume.py:52-73", "tti/indicators/_klinger_oscillator.py:53-97"]}
{"id": "C106", "title": "What a higher last close does to the trading signal", "statement": "When only the last close of a table is raised, the trading signal of a class with a fixed direction stays or moves in that direction (in the order sell, hold, buy), never the other way. Towards buy: the simple, exponential and triangular moving average, Ichimoku cloud, parabolic SAR, qstick, Williams %R, price oscillator, negative and positive volume index, median price, and typical price if another column than the close is the first of the required ones (C48). Towards sell: double and triple exponential average, Wilder smoothing, weighted close, linear regression indicator and slope, forecast oscillator, envelopes, price channel, projection bands, relative strength, relative momentum, Chande momentum and intraday momentum index, commodity channel index, stochastic momentum index, swing index, momentum, price rate of change, performance, on-balance volume, price and volume trend, standard deviation, Fibonacci retracement, mass index, detrended price oscillator, and (on tables with different low and high on every day) Klinger oscillator. So the package mixes trend following and contrarian classes: the same news moves them in opposite directions. The time series forecast has no fixed direction: with period 2 a higher close turns hold into buy, with period 6 it turns hold into sell. Neither have the accumulation distribution line, average true range, Chaikin money flow and oscillator, range indicator, stochastic oscillator, ultimate oscillator, vertical horizontal filter and Williams accumulation distribution: a higher last close moves the signal towards buy on some tables and towards sell on others. The values and the signal of the directional movement index, ease of movement, market facilitation index, relative volatility index, Chaikin's volatility, volume oscillator and volume rate of change do not change at all.", "quantifier": "all pairs of tables without gaps that differ in the last close (positive closes with at most four decimals, no low above the high, no negative volume), all parameters", "why_tests_cant": "A monotonicity statement about pairs of tables of any length, with rounded averages that themselves contain the changed close; tests compare a few pairs.", "anchors": ["tti/indicators/_moving_average.py:178-196", "tti/indicators/_envelopes.py:111-134", "tti/indicators/_williams_r.py:104-144", "tti/indicators/_stochastic_momentum_index.py:187-209", "tti/indicators/_on_balance_volume.py:75-109", "tti/indicators/_parabolic_sar.py:208-233", "tti/indicators/_relative_strength_index.py:139-161", "tti/indicators/_time_series_forecast.py:111-139", "tti/indicators/_standard_deviation.py:99-126", "tti/indicators/_fibonacci_retracement.py:83-147", "tti/indicators/_klinger_oscillator.py:99-120", "tti/indicators/_median_price.py:93-121", "tti/indicators/_mass_index.py:92-127", "tti/indicators/_directional_movement_index.py:55-183", "tti/indicators/_detrended_price_oscillator.py:68-120", "tti/indicators/_typical_price.py:84-105"]}
{"id": "C107", "title": "Errors of the prices, column by column, and columns that jump", "statement": "C71 gives one factor per class, also for tables with gaps; here the factor is per column, covers regression lines and forecasts, and the columns without a factor are shown to have none. If open, high, low and close of two tables differ by at most e on every day, the values of these columns differ by at most the factor times e, plus 0.0001 for the rounding, and are missing on the same days. Factor 1: the simple, exponential and triangular moving average, Wilder smoothing, median price, typical price, weighted close, the middle Bollinger band, price channel, Ichimoku lines, Fibonacci levels. Factor 1+s and 1-s: the envelopes with shift s. Factor 2: qstick, detrended price oscillator, average true range, regression slope and value of the regression line (period 2 or more), and MACD with its signal line (with 0.0002 and 0.0003 for the rounding). Factor 3: double exponential average, time series forecast and time series moving average of two days or more (these two with 0.0002 for the rounding; for the forecast of two days the factor is attained); factor 7: triple exponential average. There is no such factor for others: an error of any size above 0 can turn Williams %R from -100 to 0, %K of the stochastic oscillator from 0 to 100, the Chande momentum oscillator from -100 to 100 and the Chaikin money flow from -1 to 1, and can change the on-balance volume, the accumulation distribution line and Williams' accumulation and distribution by any amount.", "quantifier": "all pairs of tables without gaps of the same length, all errors e, all periods and shifts, all days; for the jumps all e > 0 (a fixed period each)", "why_tests_cant": "A bound for all perturbations of all days at once; a test perturbs a few tables and cannot show that no perturbation does worse, or that a jump remains however small the error is.", "anchors": ["tti/indicators/_moving_average.py:94-176", "tti/indicators/_double_exponential_moving_average.py:68-97", "tti/indicators/_triple_exponential_moving_average.py:68-102", "tti/indicators/_moving_average_convergence_divergence.py:54-88", "tti/indicators/_average_true_range.py:53-90", "tti/indicators/_williams_r.py:70-102", "tti/indicators/_chande_momentum_oscillator.py:68-111", "tti/indicators/_on_balance_volume.py:52-73", "tti/indicators/_linear_regression_indicator.py:71-104", "tti/indicators/_time_series_forecast.py:70-109", "tti/indicators/_chaikin_money_flow.py:69-109", "tti/indicators/_stochastic_oscillator.py:115-194", "tti/indicators/_accumulation_distribution_line.py:52-74", "tti/indicators/_williams_accumulation_distribution.py:53-86"]}
{"id": "C108", "title": "An error of the prices changes a signal only near a tie", "statement": "Take two tables whose open, high, low and close differ by at most e on every day. If the signals of the two objects differ, on the last day or on a day of a simulation, then two numbers that the signal compares are nearly equal on that day: they differ by at most what C107 says an error e can move them. For the averages, Wilder smoothing, weighted close, regression indicator, forecast, Fibonacci levels, envelopes and price channel these are the line and the close (2e + 0.0001 for a simple moving average); for the regression slope and the MACD also zero and the signal line; for the qstick zero and the value of the day before. If there is no such near tie on any day and the dates are the same, every simulation has the same result, whatever close values, exposure and factor it is given.", "quantifier": "all pairs of tables without gaps of the same length, all errors e, all calls of the classes above, all days of a simulation, all arguments of a simulation", "why_tests_cant": "A test perturbs a few tables; that no perturbation below the margin flips a signal on any day is a statement about all of them.", "anchors": ["tti/indicators/_moving_average.py:178-196", "tti/indicators/_technical_indicator.py:284-433", "tti/indicators/_envelopes.py:111-134", "tti/indicators/_moving_average_convergence_divergence.py:90-126", "tti/indicators/_qstick.py:96-129"]}
{"id": "C109", "title": "Days on which nothing was traded", "statement": "Tables from calendars that include holidays have idle days: the close of the day before, volume 0, any open, high and low. With such days added anywhere after the first day, on balance volume, price and volume trend and performance have on every day the value that they have without the idle days on the same day, and on an idle day that of the day before. So does the accumulation distribution line if high and low differ on all days; if they are equal on an idle day, the value of that day is missing and the other values keep the decimals which the line without such a day cuts off. Williams' accumulation and distribution is 0 on an idle day and unchanged on the others. The negative and positive volume index do change: an idle day between days with volumes 2 and 1 makes the first miss the second day and the other count it, whatever its close. In a simulation an idle day with the signal hold changes nothing: exposure, portfolio value, earnings and balance are those of the day before, and all later days are as without it. The statistics differ in the number of trading days only.", "quantifier": "all tables without gaps, all numbers and positions of idle days, all limits and factors of a simulation, all objects (however used before)", "why_tests_cant": "Idle days can stand anywhere and in any number; that none of them leaks into a running total or into an open position is an induction over the table.", "anchors": ["tti/indicators/_on_balance_volume.py:52-73", "tti/indicators/_price_and_volume_trend.py:53-81", "tti/indicators/_accumulation_distribution_line.py:52-74", "tti/indicators/_williams_accumulation_distribution.py:53-86", "tti/indicators/_negative_volume_index.py:53-84", "tti/indicators/_positive_volume_index.py:53-84", "tti/utils/trading_simulation.py:361-458"]}
{"id": "C110", "title": "What the short exposure factor changes", "statement": "Simulate one indicator on one table with two values of short_exposure_factor. Without max_exposure the signals, actions, portfolio values, earnings and balances are the same on every day, and so are all statistics but the last exposure; the exposures differ by the difference of the factors times the sum of the opening prices of the shorts that are open. With a limit the same holds if there is no buy signal and both limits are in proportion to the factors: the exposures are then in this proportion as well, so only the ratio of limit and factor counts. If there is no sell signal, the factor has no effect at all, with or without a limit. Otherwise a limit makes the factor matter for the earnings, and not in the way one expects: a larger factor can earn more (the shorts it keeps from being opened leave room for a long that wins).", "quantifier": "all objects (however used before), all tables of closes, all limits, all factors of at least 1, all signals", "why_tests_cant": "Two runs with different factors are compared over whole histories; that the factor cancels out of every closing decision and every profit needs an induction over the days.", "anchors": ["tti/utils/trading_simulation.py:361-458", "tti/utils/trading_simulation.py:460-591", "tti/utils/trading_simulation.py:283-336", "tti/indicators/_technical_indicator.py:284-425"]}
