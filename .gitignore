.lake
build
__pycache__
